import Verif.Spec.Frame
import Verif.Spec.Energy
import Verif.Props.Translation
import Verif.Props.Chain
import Verif.Props.Spin
import Verif.Props.StationKeeping
import Verif.Props.Momentum

/-! Properties C195, C196 and C197: simulations in other axes. -/

namespace Xdyn.Sim

open Blocked Body Spec Solver Xdyn.Server

/-! ### Equations that do not depend on the date -/

theorem rkStages_autonomous {f : List ℝ → ℝ → List ℝ} (hf : ∀ x t t', f x t = f x t') (x : List ℝ) (t t' dt : ℝ) :
    ∀ (rows : List (ℝ × List ℝ)) (ks : List (List ℝ)), RK.rkStages f x t dt rows ks = RK.rkStages f x t' dt rows ks
  | [], _ => rfl
  | (c, a) :: rows, ks => by
    rw [RK.rkStages, RK.rkStages, hf _ (t + c * dt) (t' + c * dt)]
    exact rkStages_autonomous hf x t t' dt rows _

theorem rkRun_autonomous {f : List ℝ → ℝ → List ℝ} (hf : ∀ x t t', f x t = f x t') (T : Tableau ℝ) (x : List ℝ) (t t' dt : ℝ) :
    ∀ i, RK.rkRun f (fun x _ => x) T x t dt i = RK.rkRun f (fun x _ => x) T x t' dt i
  | 0 => rfl
  | i + 1 => by
    rw [RK.rkRun, RK.rkRun, rkRun_autonomous hf T x t t' dt i, RK.rkStep, RK.rkStep, rkStages_autonomous hf _ _ (t' + i * dt)]

theorem newton_autonomous (Minv : Mat6 ℝ) (F : Vec3 ℝ → Vec3 ℝ → Vec3 ℝ → Quat ℝ → Vec3 ℝ × Vec3 ℝ) (x : List ℝ) (t t' : ℝ) :
    newton Minv F x t = newton Minv F x t' := by
  unfold newton
  split <;> rfl

theorem newton_length (Minv : Mat6 ℝ) (F : Vec3 ℝ → Vec3 ℝ → Vec3 ℝ → Quat ℝ → Vec3 ℝ × Vec3 ℝ) (x : List ℝ) (t : ℝ) (hx : x.length = 13) :
    (newton Minv F x t).length = 13 := by
  match x, hx with
  | [a, b, c, d, e, f, g, h, i, j, k, l, m], _ => rfl

theorem along_length (x : List ℝ) (c : ℝ) (k : List ℝ) (hx : x.length = 13) (hk : k.length = 13) : (along x c k).length = 13 := by
  simp [along, hx, hk]

theorem rkRun_length (Minv : Mat6 ℝ) (F : Vec3 ℝ → Vec3 ℝ → Vec3 ℝ → Quat ℝ → Vec3 ℝ × Vec3 ℝ) (T : Tableau ℝ) (x : List ℝ) (hx : x.length = 13) (t dt : ℝ) (i : Nat) :
    (RK.rkRun (newton Minv F) (fun x _ => x) T x t dt i).length = 13 :=
  rk_related (f := newton Minv F) (g := newton Minv F) (ρ := fun x _ => x.length = 13) (δ := fun k _ => k.length = 13) T t dt
    (fun x _ k _ c hx hk => along_length x c k hx hk) (fun x _ t hx => newton_length _ _ x t hx) x x hx i

/-- Two simulations whose equations of motion are images of each other by `L` (`L'` for the derivatives), at least in the states that are reached: all that is observed is the image of what is observed with the other one. -/
theorem carried {S S' : Setup ℝ (Vec3 ℝ × Vec3 ℝ) Unit} {cmd cmd' : Commands ℝ} {ae1 : ℝ → Bool}
    {Minv Minv' : Mat6 ℝ} {F F' : Vec3 ℝ → Vec3 ℝ → Vec3 ℝ → Quat ℝ → Vec3 ℝ × Vec3 ℝ}
    (hM : Memoryless S cmd (newton Minv F) (fun x _ => x) (fun x => x.length = 13) (fun x => x.length = 13))
    (hM' : Memoryless S' cmd' (newton Minv' F') (fun x _ => x) (fun x => x.length = 13) (fun x => x.length = 13))
    (hn : S.normalize = normalizeQuaternions ae1 1) (hn' : S'.normalize = normalizeQuaternions ae1 1)
    (hae : ∀ n a, S.ae n a a = true) (hae' : ∀ n a, S'.ae n a a = true)
    (L L' : List ℝ → List ℝ) (hlen : ∀ x, x.length = 13 → (L x).length = 13)
    (Reached Rate : List ℝ → Prop) (hReached : ∀ x, Reached x → x.length = 13)
    (hmove : ∀ x c k, Reached x → Rate k → Reached (along x c k)) (hrate : ∀ x t, Reached x → Rate (newton Minv F x t))
    (halong : ∀ x c k, Reached x → Rate k → L (along x c k) = along (L x) c (L' k))
    (heq : ∀ x t, Reached x → newton Minv' F' (L x) t = L' (newton Minv F x t))
    (hquat : ∀ x, Reached x → unitQuaternion ae1 (L x) = L (unitQuaternion ae1 x))
    (T : Tableau ℝ) (hT : Forward T) (tau : ℝ)
    (s s' : Sim ℝ (Vec3 ℝ × Vec3 ℝ)) (hc : s.commands = cmd) (hc' : s'.commands = cmd') (hr : Reached s.state) (hs' : s'.state = L s.state)
    (h0 : ∀ n, (field s.hist n).Tmax = 0) (h0' : ∀ n, (field s'.hist n).Tmax = 0)
    (tstart tend dt : ℝ) (hdt : 0 < dt) (hh : NotAfter S.ae s.hist tstart) (hh' : NotAfter S'.ae s'.hist (tstart + tau)) (N : Nat) (hN : tend ≤ tstart + N * dt)
    (hfirst : ∀ i < N, tstart + (i : ℝ) * dt < tend) (fuel : Nat) (hf : N ≤ fuel)
    (sys sys' : System ℝ (Sim ℝ (Vec3 ℝ × Vec3 ℝ)) (Res ℝ Unit)) (hsys : sys = simSystem S T.stepper ∨ sys = sscSystem S T.stepper)
    (hsys' : sys' = simSystem S' T.stepper ∨ sys' = sscSystem S' T.stepper) :
    ∃ f f' obs obs', quicksolve sys fuel s tstart tend dt = some (.ok (f, obs)) ∧ quicksolve sys' fuel s' (tstart + tau) (tend + tau) dt = some (.ok (f', obs')) ∧
      obs.length = N + 1 ∧ (∀ o ∈ obs, o.x.length = 13) ∧ obs'.map (fun o => (o.t, o.x)) = obs.map (fun o => (o.t + tau, L o.x)) := by
  have hs := hReached _ hr
  have run : ∀ {S : Setup ℝ (Vec3 ℝ × Vec3 ℝ) Unit} {cmd : Commands ℝ} {Minv : Mat6 ℝ} {F : Vec3 ℝ → Vec3 ℝ → Vec3 ℝ → Quat ℝ → Vec3 ℝ × Vec3 ℝ}
      (_ : Memoryless S cmd (newton Minv F) (fun x _ => x) (fun x => x.length = 13) (fun x => x.length = 13))
      (_ : ∀ n a, S.ae n a a = true) (s : Sim ℝ (Vec3 ℝ × Vec3 ℝ)) (_ : s.commands = cmd) (_ : s.state.length = 13) (_ : ∀ n, (field s.hist n).Tmax = 0)
      (tstart tend : ℝ) (_ : NotAfter S.ae s.hist tstart) (_ : tend ≤ tstart + N * dt) (_ : ∀ i < N, tstart + (i : ℝ) * dt < tend)
      (sys : System ℝ (Sim ℝ (Vec3 ℝ × Vec3 ℝ)) (Res ℝ Unit)) (_ : sys = simSystem S T.stepper ∨ sys = sscSystem S T.stepper),
      ∃ f obs, quicksolve sys fuel s tstart tend dt = some (.ok (f, obs)) ∧ obs.length = N + 1 ∧
        ∀ (i : Nat) (hi : i < obs.length), obs[i].t = tstart + i * dt ∧
          S.normalize (RK.rkRun (newton Minv F) (fun x _ => x) T s.state tstart dt i) = .ok obs[i].x := by
    intro S cmd Minv F hM hae s hc hs h0 tstart tend hh hN hfirst sys hsys
    rcases hsys with rfl | rfl
    · obtain ⟨f, obs, h1, -, h3, h4⟩ := simulation_is_runge_kutta hM hae T hT s hc hs h0 tstart tend dt hdt hh N hN hfirst fuel hf
      exact ⟨f, obs, h1, h3, h4⟩
    · obtain ⟨f, obs, h1, -, h3, h4⟩ := executable_is_runge_kutta hM hae T hT s hc hs h0 tstart tend dt hdt hh N hN hfirst fuel hf
      exact ⟨f, obs, h1, h3, h4⟩
  obtain ⟨f, obs, a1, a2, a3⟩ := run hM hae s hc hs h0 tstart tend hh hN hfirst sys hsys
  obtain ⟨f', obs', b1, b2, b3⟩ := run hM' hae' s' hc' (by rw [hs']; exact hlen _ hs) h0' (tstart + tau) (tend + tau) hh' (by linarith)
    (fun i hi => by have := hfirst i hi; linarith) sys' hsys'
  refine ⟨f, f', obs, obs', a1, b1, a2, ?_, ?_⟩
  · intro o ho
    obtain ⟨i, hi, rfl⟩ := List.mem_iff_getElem.mp ho
    have hlenx := rkRun_length Minv F T s.state hs tstart dt i
    have := (a3 i hi).2
    rw [hn, (normalize_unitQuaternion ae1 _ hlenx).1] at this
    rw [← Except.ok.inj this]
    exact (normalize_unitQuaternion ae1 _ hlenx).2
  apply List.ext_getElem
  · simp [a2, b2]
  · intro i hi hi'
    simp only [List.length_map] at hi hi'
    obtain ⟨a4, a5⟩ := a3 i hi'
    obtain ⟨b4, b5⟩ := b3 i hi
    have hlenx := rkRun_length Minv F T s.state hs tstart dt i
    obtain ⟨hreached, hrel⟩ := rk_related (f := newton Minv F) (g := newton Minv' F') (ρ := fun x y => Reached x ∧ y = L x) (δ := fun k l => Rate k ∧ l = L' k) T tstart dt
      (by
        rintro x y k l c ⟨hx, rfl⟩ ⟨hk, rfl⟩
        exact ⟨hmove x c k hx hk, (halong x c k hx hk).symm⟩)
      (by
        rintro x y t ⟨hx, rfl⟩
        exact ⟨hrate x t hx, heq x t hx⟩) s.state s'.state ⟨hr, hs'⟩ i
    rw [rkRun_autonomous (newton_autonomous _ _) T s'.state (tstart + tau) tstart, hrel, hn', (normalize_unitQuaternion ae1 _ (hlen _ hlenx)).1, hquat _ hreached] at b5
    rw [hn, (normalize_unitQuaternion ae1 _ hlenx).1] at a5
    simp only [List.getElem_map, Prod.mk.injEq]
    refine ⟨by rw [a4, b4]; ring, ?_⟩
    rw [← Except.ok.inj a5, ← Except.ok.inj b5]

/-! ### Another origin, another date -/

theorem shifted_wrench (d G P u w : Vec3 ℝ) (q : Quat ℝ) (c : Control) : (c.shifted d).wrench G (P + d) u w q = c.wrench G P u w q := by
  cases c with
  | stationKeeping I psiOf c xCo yCo psiCo => simp [Control.shifted, Control.wrench, keeperForce]
  | heading I psiOf name ksi Tp psiCo => rfl

/-- **C195** The results of a simulation do not depend on the origin of the axes nor on the date of the beginning: with the force models `gravity`, `linear damping`, `quadratic damping`,
`resistance curve`, `constant force` in NED, and controllers whose set points are moved with the origin, what is observed is what is observed without the displacement, moved; the dates are moved as well. This is so for the
executable and for the co-simulation, for each method whose stages do not go back in time. -/
theorem simulation_moved (e e' : Multi.Entry ℝ) (he : Alone e) (hb' : e'.body = e.body) (ae : Nat → ℝ → ℝ → Bool) (hae : ∀ n a, ae n a a = true) (ae1 : ℝ → Bool)
    (l : List Push) (hl : e.forces = l.map (Push.model e.body)) (hl' : e'.forces = e.forces) (hb : ∀ f ∈ l, ¬ f.InBody) (cs : List Control) (d : Vec3 ℝ)
    (hcs : e.controlled = cs.map (Control.model e.body)) (hcs' : e'.controlled = (cs.map (Control.shifted d)).map (Control.model e.body))
    (s s' : Sim ℝ (Vec3 ℝ × Vec3 ℝ)) (ho : ∀ c ∈ cs, c.Commanded s.commands) (ho' : ∀ c ∈ cs, (c.shifted d).Commanded s'.commands)
    (hs : s.state.length = 13) (hs' : s'.state = shiftedStates d s.state) (T : Tableau ℝ) (hT : Forward T) (tau : ℝ)
    (h0 : ∀ n, (field s.hist n).Tmax = 0) (h0' : ∀ n, (field s'.hist n).Tmax = 0)
    (tstart tend dt : ℝ) (hdt : 0 < dt) (hh : NotAfter ae s.hist tstart) (hh' : NotAfter ae s'.hist (tstart + tau)) (N : Nat) (hN : tend ≤ tstart + N * dt)
    (hfirst : ∀ i < N, tstart + (i : ℝ) * dt < tend) (fuel : Nat) (hf : N ≤ fuel)
    (sys sys' : System ℝ (Sim ℝ (Vec3 ℝ × Vec3 ℝ)) (Res ℝ Unit))
    (hsys : sys = simSystem (oneBody e ae ae1) T.stepper ∨ sys = sscSystem (oneBody e ae ae1) T.stepper)
    (hsys' : sys' = simSystem (oneBody e' ae ae1) T.stepper ∨ sys' = sscSystem (oneBody e' ae ae1) T.stepper) :
    ∃ f f' obs obs', quicksolve sys fuel s tstart tend dt = some (.ok (f, obs)) ∧ quicksolve sys' fuel s' (tstart + tau) (tend + tau) dt = some (.ok (f', obs')) ∧
      obs.length = N + 1 ∧ (∀ o ∈ obs, o.x.length = 13) ∧ obs'.map (fun o => (o.t, o.x)) = obs.map (fun o => (o.t + tau, shiftedStates d o.x)) := by
  have he' : Alone e' := ⟨by rw [hb']; exact he.idx, by rw [hb']; exact he.name, by rw [hb']; exact he.free⟩
  have hM := controlled_memoryless e he ae ae1 l hl hb cs hcs s.commands ho
  have hM' := controlled_memoryless e' he' ae ae1 l (by rw [hl', hl, hb']) hb (cs.map (Control.shifted d)) (by rw [hcs', hb']) s'.commands
    (by simpa using ho')
  refine carried (ae1 := ae1) hM hM' rfl rfl hae hae (shiftedStates d) id ?_ (fun x => x.length = 13) (fun x => x.length = 13) (fun _ h => h) (fun x c k hx hk => along_length x c k hx hk)
    (fun x t hx => newton_length _ _ x t hx) ?_ ?_ ?_ T hT tau s s' rfl rfl hs hs' h0 h0' tstart tend dt hdt hh hh' N hN hfirst fuel hf sys sys' hsys hsys'
  · intro x hx
    match x, hx with
    | [a, b, c, d, e, f, g, h, i, j, k, l, m], _ => rfl
  · intro x c k hx hk
    match x, hx, k, hk with
    | [a, b, c, d, e, f, g, h, i, j, k, l, m], _, [a', b', c', d', e', f', g', h', i', j', k', l', m'], _ =>
      simp [shiftedStates, along]
      refine ⟨?_, ?_, ?_⟩ <;> ring
  · intro x t hx
    match x, hx with
    | [x, y, z, u, v, w, p, q, r, qr, qi, qj, qk], _ =>
      have hP : (![x + d 0, y + d 1, z + d 2] : Vec3 ℝ) = ![x, y, z] + d := by funext i; fin_cases i <;> rfl
      simp only [shiftedStates, newton, id, total, hb', hP, List.map_map]
      rw [show (Control.wrench e.body.G (![x, y, z] + d) ![u, v, w] ![p, q, r] ⟨qr, qi, qj, qk⟩ ∘ Control.shifted d) =
        Control.wrench e.body.G ![x, y, z] ![u, v, w] ![p, q, r] ⟨qr, qi, qj, qk⟩ from funext fun c => shifted_wrench d _ _ _ _ _ c]
  · intro x hx
    match x, hx with
    | [a, b, c, d, e, f, g, h, i, j, k, l, m], _ =>
      simp only [shiftedStates, unitQuaternion]
      split <;> rfl

/-! ### A mirror -/

theorem matrix_entries (q : Quat ℝ) (v : Vec3 ℝ) : q.matrix.mulVec v =
    ![(1 - 2 * (q.y ^ 2 + q.z ^ 2)) * v 0 + 2 * (q.x * q.y - q.w * q.z) * v 1 + 2 * (q.x * q.z + q.w * q.y) * v 2,
      2 * (q.x * q.y + q.w * q.z) * v 0 + (1 - 2 * (q.x ^ 2 + q.z ^ 2)) * v 1 + 2 * (q.y * q.z - q.w * q.x) * v 2,
      2 * (q.x * q.z - q.w * q.y) * v 0 + 2 * (q.y * q.z + q.w * q.x) * v 1 + (1 - 2 * (q.x ^ 2 + q.y ^ 2)) * v 2] := by
  funext i
  fin_cases i <;> simp [Quat.matrix, Matrix.mulVec, dotProduct, Fin.sum_univ_succ] <;> ring

theorem matrix_transpose_entries (q : Quat ℝ) (v : Vec3 ℝ) : q.matrix.transpose.mulVec v =
    ![(1 - 2 * (q.y ^ 2 + q.z ^ 2)) * v 0 + 2 * (q.x * q.y + q.w * q.z) * v 1 + 2 * (q.x * q.z - q.w * q.y) * v 2,
      2 * (q.x * q.y - q.w * q.z) * v 0 + (1 - 2 * (q.x ^ 2 + q.z ^ 2)) * v 1 + 2 * (q.y * q.z + q.w * q.x) * v 2,
      2 * (q.x * q.z + q.w * q.y) * v 0 + 2 * (q.y * q.z - q.w * q.x) * v 1 + (1 - 2 * (q.x ^ 2 + q.y ^ 2)) * v 2] := by
  funext i
  fin_cases i <;> simp [Quat.matrix, Matrix.mulVec, dotProduct, Fin.sum_univ_succ] <;> ring

theorem mirror_velocity (q : Quat ℝ) (u : Vec3 ℝ) : (mirrorQuat q).matrix.mulVec (mirrorVec u) = mirrorVec (q.matrix.mulVec u) := by
  rw [matrix_entries, matrix_entries]
  funext i
  fin_cases i <;> simp [mirrorQuat, mirrorVec] <;> ring

theorem mirror_force (q : Quat ℝ) (f : Vec3 ℝ) : (mirrorQuat q).matrix.transpose.mulVec (mirrorVec f) = mirrorVec (q.matrix.transpose.mulVec f) := by
  rw [matrix_transpose_entries, matrix_transpose_entries]
  funext i
  fin_cases i <;> simp [mirrorQuat, mirrorVec] <;> ring

theorem mirror_torque (q : Quat ℝ) (m : Vec3 ℝ) : (mirrorQuat q).matrix.transpose.mulVec (mirrorTurn m) = mirrorTurn (q.matrix.transpose.mulVec m) := by
  rw [matrix_transpose_entries, matrix_transpose_entries]
  funext i
  fin_cases i <;> simp [mirrorQuat, mirrorTurn] <;> ring

theorem mirror_cross (P f : Vec3 ℝ) : cross (mirrorVec P) (mirrorVec f) = mirrorTurn (cross P f) := by
  funext i
  fin_cases i <;> simp [cross, mirrorVec, mirrorTurn] <;> ring

theorem mirrorVec_sub (a b : Vec3 ℝ) : mirrorVec (a - b) = mirrorVec a - mirrorVec b := by
  funext i
  fin_cases i <;> simp [mirrorVec] <;> ring

theorem mirrorVec_add (a b : Vec3 ℝ) : mirrorVec (a + b) = mirrorVec a + mirrorVec b := by
  funext i
  fin_cases i <;> simp [mirrorVec] <;> ring

theorem mirrorTurn_add (a b : Vec3 ℝ) : mirrorTurn (a + b) = mirrorTurn a + mirrorTurn b := by
  funext i
  fin_cases i <;> simp [mirrorTurn] <;> ring

/-- The force of the image of a force model on the image of a body is the image of the force. -/
theorem mirror_wrench (G u w : Vec3 ℝ) (q : Quat ℝ) (f : Push) :
    f.mirrored.wrench (mirrorVec G) (mirrorVec u) (mirrorTurn w) (mirrorQuat q) = (mirrorVec (f.wrench G u w q).1, mirrorTurn (f.wrench G u w q).2) := by
  cases f with
  | gravity M g =>
    have h : (![0, 0, M 2 2 * g] : Vec3 ℝ) = mirrorVec ![0, 0, M 2 2 * g] := by
      funext i
      fin_cases i <;> simp [mirrorVec]
    simp only [Push.mirrored, Push.wrench]
    refine Prod.ext ?_ ?_
    · conv_lhs => rw [h]
      exact mirror_force q _
    · funext i
      fin_cases i <;> simp [mirrorTurn]
  | linearDamping P D =>
    simp only [Push.mirrored, Push.wrench, mirrorMatrix]
    refine Prod.ext ?_ ?_ <;> funext i <;> fin_cases i <;> simp [mirrorTurn, mirrorVec, mirrorSign] <;> ring
  | quadraticDamping P D =>
    simp only [Push.mirrored, Push.wrench, mirrorMatrix]
    refine Prod.ext ?_ ?_ <;> funext i <;> fin_cases i <;> simp [mirrorTurn, mirrorVec, mirrorSign] <;> ring
  | resistance P R =>
    simp only [Push.mirrored, Push.wrench]
    refine Prod.ext ?_ ?_ <;> funext i <;> fin_cases i <;> simp [mirrorTurn, mirrorVec]
  | bodyForce f m P =>
    simp only [Push.mirrored, Push.wrench]
    rw [← mirrorVec_sub, mirror_cross, ← mirrorTurn_add]
  | nedForce f m P =>
    simp only [Push.mirrored, Push.wrench]
    rw [← mirrorVec_sub, mirror_cross, ← mirrorTurn_add, mirror_force, mirror_torque]

theorem mirror_resultant {b b' : Multi.MBody ℝ} (h : IsMirror b b') (u w : Vec3 ℝ) (q : Quat ℝ) (l : List Push) :
    resultant b' (l.map Push.mirrored) (mirrorVec u) (mirrorTurn w) (mirrorQuat q) = (mirrorVec (resultant b l u w q).1, mirrorTurn (resultant b l u w q).2) := by
  have hsum : ((l.map Push.mirrored).map (Push.wrench b'.G (mirrorVec u) (mirrorTurn w) (mirrorQuat q))).sum =
      (mirrorVec (l.map (Push.wrench b.G u w q)).sum.1, mirrorTurn (l.map (Push.wrench b.G u w q)).sum.2) := by
    rw [h.G]
    induction l with
    | nil =>
      refine Prod.ext ?_ ?_ <;> funext i <;> fin_cases i <;> simp [mirrorTurn, mirrorVec]
    | cons f l ih =>
      simp only [List.map_cons, List.sum_cons, ih, mirror_wrench, Prod.fst_add, Prod.snd_add, mirrorVec_add, mirrorTurn_add, Prod.mk_add_mk]
  rw [resultant, hsum, h.coriolis, resultant, Prod.fst_add, Prod.snd_add, mirrorVec_add, mirrorTurn_add, Prod.mk_add_mk]

/-- Columns of the six components. -/
theorem mirror_acceleration {A A' : Mat6 ℝ} (h : ∀ i j, A' i j = mirrorSign i * A i j * mirrorSign j) (f m : Vec3 ℝ) :
    A'.mulVec ![mirrorVec f 0, mirrorVec f 1, mirrorVec f 2, mirrorTurn m 0, mirrorTurn m 1, mirrorTurn m 2] =
      fun i => mirrorSign i * A.mulVec ![f 0, f 1, f 2, m 0, m 1, m 2] i := by
  funext i
  simp only [Matrix.mulVec, dotProduct, Fin.sum_univ_six, h]
  simp [mirrorSign, mirrorVec, mirrorTurn]
  fin_cases i <;> simp <;> ring

theorem mirror_newton {b b' : Multi.MBody ℝ} (h : IsMirror b b') (l : List Push) (x : List ℝ) (t : ℝ) (hx : x.length = 13) :
    newton b'.Minv (fun _ => resultant b' (l.map Push.mirrored)) (mirrorStates x) t = mirrorStates (newton b.Minv (fun _ => resultant b l) x t) := by
  match x, hx with
  | [x, y, z, u, v, w, p, q, r, qr, qi, qj, qk], _ =>
    have e1 : (![u, -v, w] : Vec3 ℝ) = mirrorVec ![u, v, w] := by simp [mirrorVec]
    have e2 : (![-p, q, -r] : Vec3 ℝ) = mirrorTurn ![p, q, r] := by simp [mirrorTurn]
    have e3 : (⟨qr, -qi, qj, -qk⟩ : Quat ℝ) = mirrorQuat ⟨qr, qi, qj, qk⟩ := rfl
    simp only [newton, mirrorStates, e1, e2, e3, mirror_velocity, mirror_resultant h, mirror_acceleration h.inertia]
    simp only [List.cons.injEq, mirrorSign, mirrorVec]
    simp
    constructor <;> ring

/-- A body whose inertia with added mass is `M`, and the image of this body. -/
theorem isMirror_of_inertia (b b' : Multi.MBody ℝ) (M : Mat6 ℝ) (hG : b'.G = mirrorVec b.G) (hM : b.Minv = M⁻¹) (hM' : b'.Minv = (Matrix.of (mirrorMatrix M))⁻¹)
    (hc : b.coriolis = inertialForces M) (hc' : b'.coriolis = inertialForces (mirrorMatrix M)) : IsMirror b b' where
  G := hG
  inertia i j := by
    have hS : (Matrix.of (mirrorMatrix M) : Mat6 ℝ) = Matrix.diagonal mirrorSign * M * Matrix.diagonal mirrorSign := by
      ext i j
      simp [mirrorMatrix, Matrix.diagonal_mul, Matrix.mul_diagonal]
    have hI : (Matrix.diagonal mirrorSign : Mat6 ℝ)⁻¹ = Matrix.diagonal mirrorSign := by
      apply Matrix.inv_eq_left_inv
      rw [Matrix.diagonal_mul_diagonal, ← Matrix.diagonal_one]
      congr 1
      funext i
      fin_cases i <;> simp [mirrorSign]
    rw [hM', hS, Matrix.mul_inv_rev, Matrix.mul_inv_rev, hI, hM, ← mul_assoc, Matrix.mul_diagonal, Matrix.diagonal_mul]
  coriolis u w := by
    rw [hc, hc']
    have h1 : ∀ i, velocity6 (mirrorVec u) (mirrorTurn w) i = mirrorSign i * velocity6 u w i := by
      intro i
      fin_cases i <;> simp [velocity6, mirrorVec, mirrorTurn, mirrorSign]
    have h0 : ∀ i : Fin 6, mirrorSign i * mirrorSign i = 1 := by
      intro i
      fin_cases i <;> simp [mirrorSign]
    have h2 : linearMomentum (mirrorMatrix M) (mirrorVec u) (mirrorTurn w) = mirrorVec (linearMomentum M u w) := by
      have : ∀ i : Fin 3, linearMomentum (mirrorMatrix M) (mirrorVec u) (mirrorTurn w) i = mirrorSign (i.castLE (by omega)) * linearMomentum M u w i := by
        intro i
        simp only [linearMomentum, mirrorMatrix, h1, Finset.mul_sum]
        refine Finset.sum_congr rfl fun j _ => ?_
        linear_combination (mirrorSign (i.castLE (by omega)) * M (i.castLE (by omega)) j * velocity6 u w j) * h0 j
      funext i
      rw [this]
      fin_cases i <;> simp [mirrorVec, mirrorSign]
    have h3 : angularMomentum (mirrorMatrix M) (mirrorVec u) (mirrorTurn w) = mirrorTurn (angularMomentum M u w) := by
      have : ∀ i : Fin 3, angularMomentum (mirrorMatrix M) (mirrorVec u) (mirrorTurn w) i = mirrorSign (i.natAdd 3) * angularMomentum M u w i := by
        intro i
        simp only [angularMomentum, mirrorMatrix, h1, Finset.mul_sum]
        refine Finset.sum_congr rfl fun j _ => ?_
        linear_combination (mirrorSign (i.natAdd 3) * M (i.natAdd 3) j * velocity6 u w j) * h0 j
      funext i
      rw [this]
      fin_cases i <;> simp [mirrorTurn, mirrorSign]
    have h4 : ∀ a b : Vec3 ℝ, cross (mirrorVec a) (mirrorTurn b) = mirrorVec (cross a b) := by
      intro a b
      funext i
      fin_cases i <;> simp [cross, mirrorVec, mirrorTurn] <;> ring
    have h5 : ∀ a b : Vec3 ℝ, cross (mirrorTurn a) (mirrorTurn b) = mirrorTurn (cross a b) := by
      intro a b
      funext i
      fin_cases i <;> simp [cross, mirrorTurn] <;> ring
    simp only [inertialForces, h2, h3, h4, h5, mirror_cross, mirrorTurn_add]

/-- **C196** The motion of the image of a body in the vertical plane that contains the axis of x, with the images of its force models (`gravity`, `linear damping`, `quadratic damping`,
`resistance curve`, `constant force` in NED), from the image of its initial states, is the image of its motion: this is so for all that is observed, to the executable and to the co-simulation, for each
method whose stages do not go back in time. -/
theorem simulation_mirrored (e e' : Multi.Entry ℝ) (he : Alone e) (he' : Alone e') (h : IsMirror e.body e'.body) (ae : Nat → ℝ → ℝ → Bool) (hae : ∀ n a, ae n a a = true) (ae1 : ℝ → Bool)
    (l : List Push) (hl : e.forces = l.map (Push.model e.body)) (hl' : e'.forces = (l.map Push.mirrored).map (Push.model e'.body)) (hb : ∀ f ∈ l, ¬ f.InBody)
    (hc : e.controlled = []) (hc' : e'.controlled = [])
    (s s' : Sim ℝ (Vec3 ℝ × Vec3 ℝ)) (hs : s.state.length = 13) (hs' : s'.state = mirrorStates s.state) (T : Tableau ℝ) (hT : Forward T)
    (h0 : ∀ n, (field s.hist n).Tmax = 0) (h0' : ∀ n, (field s'.hist n).Tmax = 0)
    (tstart tend dt : ℝ) (hdt : 0 < dt) (hh : NotAfter ae s.hist tstart) (hh' : NotAfter ae s'.hist tstart) (N : Nat) (hN : tend ≤ tstart + N * dt)
    (hfirst : ∀ i < N, tstart + (i : ℝ) * dt < tend) (fuel : Nat) (hf : N ≤ fuel)
    (sys sys' : System ℝ (Sim ℝ (Vec3 ℝ × Vec3 ℝ)) (Res ℝ Unit))
    (hsys : sys = simSystem (oneBody e ae ae1) T.stepper ∨ sys = sscSystem (oneBody e ae ae1) T.stepper)
    (hsys' : sys' = simSystem (oneBody e' ae ae1) T.stepper ∨ sys' = sscSystem (oneBody e' ae ae1) T.stepper) :
    ∃ f f' obs obs', quicksolve sys fuel s tstart tend dt = some (.ok (f, obs)) ∧ quicksolve sys' fuel s' tstart tend dt = some (.ok (f', obs')) ∧
      obs.length = N + 1 ∧ (∀ o ∈ obs, o.x.length = 13) ∧ obs'.map (fun o => (o.t, o.x)) = obs.map (fun o => (o.t, mirrorStates o.x)) := by
  have hM := mechanical_memoryless e he ae ae1 l hl hb hc s.commands
  have hM' := mechanical_memoryless e' he' ae ae1 (l.map Push.mirrored) hl' (by
    intro f hf
    obtain ⟨g, hg, rfl⟩ := List.mem_map.mp hf
    have := hb g hg
    cases g <;> simp_all [Push.mirrored, Push.InBody]) hc' s'.commands
  have key := carried (ae1 := ae1) hM hM' rfl rfl hae hae mirrorStates mirrorStates (by
      intro x hx
      match x, hx with
      | [a, b, c, d, e, f, g, h, i, j, k, l, m], _ => rfl) (fun x => x.length = 13) (fun x => x.length = 13) (fun _ h => h) (fun x c k hx hk => along_length x c k hx hk)
      (fun x t hx => newton_length _ _ x t hx) (by
      intro x c k hx hk
      match x, hx, k, hk with
      | [a, b, c, d, e, f, g, h, i, j, k, l, m], _, [a', b', c', d', e', f', g', h', i', j', k', l', m'], _ =>
        simp [mirrorStates, along]
        refine ⟨?_, ?_, ?_, ?_, ?_, ?_⟩ <;> ring) (fun x t hx => mirror_newton h l x t hx) (by
      intro x hx
      match x, hx with
      | [a, b, c, d, e, f, g, h, i, j, k, l, m], _ =>
        simp only [mirrorStates, unitQuaternion, neg_sq]
        split
        · rfl
        · simp [neg_div]) T hT 0 s s' rfl rfl hs hs' h0 h0' tstart tend dt hdt hh (by rw [add_zero]; exact hh') N hN hfirst fuel hf sys sys' hsys hsys'
  simpa only [add_zero] using key

/-- A body that is its own image, with force models that are their own images, stays in the plane when it starts in it: no sway, no roll, no yaw. -/
theorem stays_in_plane (e : Multi.Entry ℝ) (he : Alone e) (h : IsMirror e.body e.body) (ae : Nat → ℝ → ℝ → Bool) (hae : ∀ n a, ae n a a = true) (ae1 : ℝ → Bool)
    (l : List Push) (hl : e.forces = l.map (Push.model e.body)) (hself : ∀ f ∈ l, f.mirrored = f) (hb : ∀ f ∈ l, ¬ f.InBody)
    (hc : e.controlled = []) (s : Sim ℝ (Vec3 ℝ × Vec3 ℝ)) (x z u w q qr qj : ℝ) (hs : s.state = [x, 0, z, u, 0, w, 0, q, 0, qr, 0, qj, 0]) (T : Tableau ℝ) (hT : Forward T)
    (h0 : ∀ n, (field s.hist n).Tmax = 0)
    (tstart tend dt : ℝ) (hdt : 0 < dt) (hh : NotAfter ae s.hist tstart) (N : Nat) (hN : tend ≤ tstart + N * dt)
    (hfirst : ∀ i < N, tstart + (i : ℝ) * dt < tend) (fuel : Nat) (hf : N ≤ fuel)
    (sys : System ℝ (Sim ℝ (Vec3 ℝ × Vec3 ℝ)) (Res ℝ Unit))
    (hsys : sys = simSystem (oneBody e ae ae1) T.stepper ∨ sys = sscSystem (oneBody e ae ae1) T.stepper) :
    ∃ f obs, quicksolve sys fuel s tstart tend dt = some (.ok (f, obs)) ∧ obs.length = N + 1 ∧
      ∀ o ∈ obs, ∃ x z u w q qr qj : ℝ, o.x = [x, 0, z, u, 0, w, 0, q, 0, qr, 0, qj, 0] := by
  have hmap : l.map Push.mirrored = l := by
    conv_rhs => rw [← List.map_id l]
    exact List.map_congr_left (fun f hf => hself f hf)
  obtain ⟨f, f', obs, obs', h1, h2, h3, h13, h4⟩ := simulation_mirrored e e he he h ae hae ae1 l hl (by rw [hmap, hl]) hb hc hc s s (by rw [hs]; rfl) (by rw [hs]; simp [mirrorStates]) T hT h0 h0
    tstart tend dt hdt hh hh N hN hfirst fuel hf sys sys hsys hsys
  rw [h1] at h2
  simp only [Option.some.injEq, Except.ok.injEq, Prod.mk.injEq] at h2
  obtain ⟨-, rfl⟩ := h2
  refine ⟨f, obs, h1, h3, ?_⟩
  intro o ho
  have hx : o.x = mirrorStates o.x := by
    have h5 := List.map_inj_left.mp h4 o ho
    exact (Prod.mk.inj h5).2
  have hlen := h13 o ho
  revert hx
  generalize o.x = y at hlen
  intro hx
  match y, hlen with
  | [a, b, c, d, e, f, g, h, i, j, k, l, m], _ =>
    simp only [mirrorStates, List.cons.injEq, true_and, and_true] at hx
    obtain ⟨h1, h2, h3, h4, h5, h6⟩ := hx
    rw [eq_neg_iff_add_eq_zero, ← two_mul, mul_eq_zero] at h1 h2 h3 h4 h5 h6
    simp at h1 h2 h3 h4 h5 h6
    subst h1 h2 h3 h4 h5 h6
    exact ⟨a, c, d, f, h, j, l, rfl⟩

/-! ### Axes turned about the vertical -/

theorem turn_trig (a : ℝ) : Real.cos a = 1 - 2 * Real.sin (a / 2) ^ 2 ∧ Real.sin a = 2 * Real.sin (a / 2) * Real.cos (a / 2) ∧ Real.cos (a / 2) ^ 2 + Real.sin (a / 2) ^ 2 = 1 := by
  have h1 := Real.cos_two_mul (a / 2)
  have h2 := Real.sin_two_mul (a / 2)
  have h3 := Real.cos_sq_add_sin_sq (a / 2)
  rw [show 2 * (a / 2) = a by ring] at h1 h2
  refine ⟨?_, h2, h3⟩
  rw [h1]
  linarith

/-- The quaternion of the turn. -/
noncomputable def turnZ (a : ℝ) : Quat ℝ := ⟨Real.cos (a / 2), 0, 0, Real.sin (a / 2)⟩

theorem turnZ_unit (a : ℝ) : Unit4 (turnZ a) := by
  have := (turn_trig a).2.2
  simp only [Unit4, turnZ]
  linarith

theorem turnZ_matrix (a : ℝ) (v : Vec3 ℝ) : (turnZ a).matrix.mulVec v = turnedVec a v := by
  obtain ⟨h1, h2, -⟩ := turn_trig a
  rw [matrix_entries, turnedVec, h1, h2]
  funext i
  fin_cases i <;> simp [turnZ, -mul_eq_mul_right_iff] <;> ring

theorem turnedQuat_unit (a : ℝ) {q : Quat ℝ} (hq : Unit4 q) : Unit4 (turnedQuat a q) := by
  have h := (turn_trig a).2.2
  simp only [Unit4] at hq ⊢
  simp only [turnedQuat, Quat.mul]
  generalize Real.cos (a / 2) = c at *
  generalize Real.sin (a / 2) = d at *
  grind

theorem turned_velocity (a : ℝ) {q : Quat ℝ} (hq : Unit4 q) (u : Vec3 ℝ) : (turnedQuat a q).matrix.mulVec u = turnedVec a (q.matrix.mulVec u) := by
  rw [show turnedQuat a q = (turnZ a).mul q from rfl, matrix_mul_quat _ _ (turnZ_unit a) hq, ← turnZ_matrix, Matrix.mulVec_mulVec]

theorem turned_force (a : ℝ) {q : Quat ℝ} (hq : Unit4 q) (f : Vec3 ℝ) : (turnedQuat a q).matrix.transpose.mulVec (turnedVec a f) = q.matrix.transpose.mulVec f := by
  have h := mul_eq_one_comm.mp (matrix_unit _ (turnZ_unit a))
  rw [show turnedQuat a q = (turnZ a).mul q from rfl, matrix_mul_quat _ _ (turnZ_unit a) hq, ← turnZ_matrix, Matrix.transpose_mul, Matrix.mulVec_mulVec, mul_assoc, h, mul_one]

/-- With a unit quaternion, the force of a force model does not depend on the orientation of the axes. -/
theorem turned_wrench (a : ℝ) (G u w : Vec3 ℝ) {q : Quat ℝ} (hq : Unit4 q) (f : Push) (hG : f.Central G) : (f.turned a).wrench G u w (turnedQuat a q) = f.wrench G u w q := by
  cases f with
  | gravity M g =>
    have h : (![0, 0, M 2 2 * g] : Vec3 ℝ) = turnedVec a ![0, 0, M 2 2 * g] := by
      funext i
      fin_cases i <;> simp [turnedVec]
    simp only [Push.turned, Push.wrench]
    conv_lhs => rw [h]
    rw [turned_force a hq]
  | nedForce f m P =>
    obtain rfl : P = G := hG
    have h0 : ∀ v : Vec3 ℝ, cross (0 : Vec3 ℝ) v = 0 := fun v => by
      funext i
      fin_cases i <;> simp [cross]
    simp only [Push.turned, Push.wrench, sub_self, h0, add_zero, turned_force a hq]
  | _ => rfl

theorem turned_resultant (a : ℝ) (b : Multi.MBody ℝ) (l : List Push) (hl : ∀ f ∈ l, f.Central b.G) (u w : Vec3 ℝ) {q : Quat ℝ} (hq : Unit4 q) :
    resultant b (l.map (Push.turned a)) u w (turnedQuat a q) = resultant b l u w q := by
  rw [resultant, resultant, List.map_map]
  congr 2
  exact List.map_congr_left fun f hf => turned_wrench a _ _ _ hq f (hl f hf)

/-- The equations of motion are the same in the turned axes, if the quaternion is a unit quaternion. -/
theorem turned_newton (a : ℝ) (b : Multi.MBody ℝ) (l : List Push) (hl : ∀ f ∈ l, f.Central b.G) (x : List ℝ) (t : ℝ) (hx : x.length = 13) (hq : Unit4 (attitudeOf x)) :
    newton b.Minv (fun _ => resultant b (l.map (Push.turned a))) (turnedStates a x) t = turnedStates a (newton b.Minv (fun _ => resultant b l) x t) := by
  match x, hx with
  | [x, y, z, u, v, w, p, q, r, qr, qi, qj, qk], _ =>
    have hq : Unit4 (⟨qr, qi, qj, qk⟩ : Quat ℝ) := hq
    have e : (⟨(turnedQuat a ⟨qr, qi, qj, qk⟩).w, (turnedQuat a ⟨qr, qi, qj, qk⟩).x, (turnedQuat a ⟨qr, qi, qj, qk⟩).y, (turnedQuat a ⟨qr, qi, qj, qk⟩).z⟩ : Quat ℝ) =
      turnedQuat a ⟨qr, qi, qj, qk⟩ := rfl
    simp only [newton, turnedStates, e, turned_velocity a hq, turned_resultant a b l hl _ _ hq, vec3_eta]
    simp only [List.cons.injEq, turnedQuat, Quat.mul, true_and, and_true]
    refine ⟨?_, ?_, ?_, ?_⟩ <;> ring

theorem turnedStates_eq (a : ℝ) (s : List ℝ) (h : s.length = 13) : turnedStates a s =
    [Real.cos a * s.getD 0 0 - Real.sin a * s.getD 1 0, Real.sin a * s.getD 0 0 + Real.cos a * s.getD 1 0, s.getD 2 0, s.getD 3 0, s.getD 4 0, s.getD 5 0, s.getD 6 0, s.getD 7 0, s.getD 8 0,
      Real.cos (a / 2) * s.getD 9 0 - Real.sin (a / 2) * s.getD 12 0, Real.cos (a / 2) * s.getD 10 0 - Real.sin (a / 2) * s.getD 11 0,
      Real.cos (a / 2) * s.getD 11 0 + Real.sin (a / 2) * s.getD 10 0, Real.cos (a / 2) * s.getD 12 0 + Real.sin (a / 2) * s.getD 9 0] := by
  match s, h with
  | [x, y, z, u, v, w, p, q, r, qr, qi, qj, qk], _ => simp [turnedStates, turnedVec, turnedQuat, Quat.mul]

/-- **C197** The exact motions do not depend on the orientation of the axes: from a motion of a body whose force models are `gravity`, `linear damping`, `quadratic damping`, `resistance curve`, constant forces in
its own axes, and constant forces in NED applied at its centre of gravity, one gets a motion when the positions, the attitudes and the forces in NED are turned about the vertical. -/
theorem motion_turned_partial (a : ℝ) (b : Multi.MBody ℝ) (l : List Push) (hl : ∀ f ∈ l, f.Central b.G) (y : ℝ → List ℝ)
    (hy : IsMotion (newton b.Minv (fun _ => resultant b l)) y) (h0 : Unit4 (attitudeOf (y 0))) :
    IsMotion (newton b.Minv (fun _ => resultant b (l.map (Push.turned a)))) (fun t => turnedStates a (y t)) := by
  have hunit := motion_unit hy h0
  intro t
  obtain ⟨hlen, hd⟩ := hy t
  refine ⟨by simp only [turnedStates_eq a _ hlen, List.length_cons, List.length_nil], fun i => ?_⟩
  have hfun : (fun t => (turnedStates a (y t)).getD i 0) = fun t => _ := funext fun t => by rw [turnedStates_eq a _ (hy t).1]
  simp only [turned_newton a b l hl (y t) t hlen (hunit t), turnedStates_eq a _ (newton_length _ _ _ t hlen)]
  rw [hfun]
  match i with
  | 0 => exact ((hd 0).const_mul _).sub ((hd 1).const_mul _)
  | 1 => exact ((hd 0).const_mul _).add ((hd 1).const_mul _)
  | 2 => exact hd 2
  | 3 => exact hd 3
  | 4 => exact hd 4
  | 5 => exact hd 5
  | 6 => exact hd 6
  | 7 => exact hd 7
  | 8 => exact hd 8
  | 9 => exact ((hd 9).const_mul _).sub ((hd 12).const_mul _)
  | 10 => exact ((hd 10).const_mul _).sub ((hd 11).const_mul _)
  | 11 => exact ((hd 11).const_mul _).add ((hd 10).const_mul _)
  | 12 => exact ((hd 12).const_mul _).add ((hd 9).const_mul _)
  | n + 13 => simpa using hasDerivAt_const t (0 : ℝ)

/-- The force models do not turn the body when it has the attitude `q` and does not turn. -/
def Steady (b : Multi.MBody ℝ) (l : List Push) (q : Quat ℝ) : Prop :=
  ∀ u : Vec3 ℝ, let F := resultant b l u 0 q
    ∀ i : Fin 3, b.Minv.mulVec ![F.1 0, F.1 1, F.1 2, F.2 0, F.2 1, F.2 2] (i.natAdd 3) = 0

/-- **C197** The simulated motion of a body that does not turn does not depend on the orientation of the axes. -/
theorem simulation_turned_partial (e e' : Multi.Entry ℝ) (he : Alone e) (hb' : e'.body = e.body) (ae : Nat → ℝ → ℝ → Bool) (hae : ∀ n a, ae n a a = true) (ae1 : ℝ → Bool)
    (l : List Push) (hcen : ∀ f ∈ l, f.Central e.body.G) (hl : e.forces = l.map (Push.model e.body)) (a : ℝ) (hl' : e'.forces = (l.map (Push.turned a)).map (Push.model e.body)) (hb : ∀ f ∈ l, ¬ f.InBody)
    (hc : e.controlled = []) (hc' : e'.controlled = []) (P u : Vec3 ℝ) (q : Quat ℝ) (hq : Unit4 q) (hst : Steady e.body l q)
    (s s' : Sim ℝ (Vec3 ℝ × Vec3 ℝ)) (hs : s.state = vec13 P u 0 q) (hs' : s'.state = vec13 (turnedVec a P) u 0 (turnedQuat a q)) (T : Tableau ℝ) (hT : Forward T)
    (h0 : ∀ n, (field s.hist n).Tmax = 0) (h0' : ∀ n, (field s'.hist n).Tmax = 0)
    (tstart tend dt : ℝ) (hdt : 0 < dt) (hh : NotAfter ae s.hist tstart) (hh' : NotAfter ae s'.hist tstart) (N : Nat) (hN : tend ≤ tstart + N * dt)
    (hfirst : ∀ i < N, tstart + (i : ℝ) * dt < tend) (fuel : Nat) (hf : N ≤ fuel)
    (sys sys' : System ℝ (Sim ℝ (Vec3 ℝ × Vec3 ℝ)) (Res ℝ Unit))
    (hsys : sys = simSystem (oneBody e ae ae1) T.stepper ∨ sys = sscSystem (oneBody e ae ae1) T.stepper)
    (hsys' : sys' = simSystem (oneBody e' ae ae1) T.stepper ∨ sys' = sscSystem (oneBody e' ae ae1) T.stepper) :
    ∃ f f' obs obs', quicksolve sys fuel s tstart tend dt = some (.ok (f, obs)) ∧ quicksolve sys' fuel s' tstart tend dt = some (.ok (f', obs')) ∧
      obs.length = N + 1 ∧ (∀ o ∈ obs, o.x.length = 13) ∧ obs'.map (fun o => (o.t, o.x)) = obs.map (fun o => (o.t, turnedStates a o.x)) := by
  have he' : Alone e' := ⟨by rw [hb']; exact he.idx, by rw [hb']; exact he.name, by rw [hb']; exact he.free⟩
  have hM := mechanical_memoryless e he ae ae1 l hl hb hc s.commands
  have hM' := mechanical_memoryless e' he' ae ae1 (l.map (Push.turned a)) (by rw [hl', hb']) (by
    intro f hf
    obtain ⟨g, hg, rfl⟩ := List.mem_map.mp hf
    have := hb g hg
    cases g <;> simp_all [Push.turned, Push.InBody]) hc' s'.commands
  rw [hb'] at hM'
  have key := carried (ae1 := ae1) hM hM' rfl rfl hae hae (turnedStates a) (turnedStates a) (fun x hx => by rw [turnedStates_eq a x hx]; rfl)
    (fun x => ∃ P u, x = vec13 P u 0 q) (fun k => ∃ P u, k = vec13 P u 0 ⟨0, 0, 0, 0⟩) (by rintro x ⟨P, u, rfl⟩; rfl) (by
      rintro x c k ⟨P, u, rfl⟩ ⟨P', u', rfl⟩
      exact ⟨P + c • P', u + c • u', by simp [along, vec13]⟩) (by
      rintro x t ⟨P, u, rfl⟩
      have e1 : (![0, 0, 0] : Vec3 ℝ) = 0 := by funext i; fin_cases i <;> rfl
      have hz : (fun i : Fin 3 => acceleration e.body.Minv (fun _ => resultant e.body l) (vec13 P u 0 q) (i.natAdd 3)) = 0 := by
        funext i
        have h := hst u i
        simp only [acceleration, vec13]
        simpa [vec3_eta, velocityOf, turnOf, attitudeOf, e1] using h
      have ht : turnOf (vec13 P u 0 q) = 0 := by funext i; fin_cases i <;> rfl
      have hn := newton_parts e.body.Minv (fun _ => resultant e.body l) (vec13 P u 0 q) rfl t
      rw [hz, ht] at hn
      simp only [Pi.zero_apply, mul_zero, sub_zero, add_zero, zero_div] at hn
      exact ⟨_, _, hn⟩) (by
      rintro x c k ⟨P, u, rfl⟩ ⟨P', u', rfl⟩
      simp [turnedStates, along, vec13, turnedVec, turnedQuat, Quat.mul]
      constructor <;> ring) (by
      rintro x t ⟨P, u, rfl⟩
      exact turned_newton a e.body l hcen _ t rfl hq) (by
      rintro x ⟨P, u, rfl⟩
      have : ∀ (P : Vec3 ℝ) (q : Quat ℝ), Unit4 q → unitQuaternion ae1 (vec13 P u 0 q) = vec13 P u 0 q := by
        intro P q hq
        simp only [unitQuaternion, vec13, show q.w ^ 2 + q.x ^ 2 + q.y ^ 2 + q.z ^ 2 = 1 from hq, Real.sqrt_one, div_one, ite_self]
      rw [this P q hq]
      exact this (turnedVec a ![P 0, P 1, P 2]) (turnedQuat a q) (turnedQuat_unit a hq)) T hT 0 s s' rfl rfl ⟨P, u, hs⟩ (by
      rw [hs', hs]
      simp [turnedStates, vec13, turnedVec]) h0 h0' tstart tend dt hdt hh (by rw [add_zero]; exact hh') N hN hfirst fuel hf sys sys' hsys hsys'
  simpa only [add_zero] using key

/-! ### The orientation of the axes matters for bodies that turn -/

theorem turning_newton (x y z u v w p q r qr qi qj qk t : ℝ) :
    newton freeTop.body.Minv (fun _ => resultant freeTop.body []) [x, y, z, u, v, w, p, q, r, qr, qi, qj, qk] t =
      [(1 - 2 * (qj ^ 2 + qk ^ 2)) * u + 2 * (qi * qj - qr * qk) * v + 2 * (qi * qk + qr * qj) * w,
       2 * (qi * qj + qr * qk) * u + (1 - 2 * (qi ^ 2 + qk ^ 2)) * v + 2 * (qj * qk - qr * qi) * w,
       2 * (qi * qk - qr * qj) * u + 2 * (qj * qk + qr * qi) * v + (1 - 2 * (qi ^ 2 + qj ^ 2)) * w,
       v * r - w * q, w * p - u * r, u * q - v * p, 0, 0, 0,
       (-qi * p - qj * q - qk * r) / 2, (qr * p + qj * r - qk * q) / 2, (qr * q - qi * r + qk * p) / 2,
       (qr * r + qi * q - qj * p) / 2] := by
  rw [← top_newton x y z u v w p q r qr qi qj qk t]
  simp only [newton, total, List.map_nil, List.sum_nil, add_zero]

theorem unitQuaternion_second (ae1 : ℝ → Bool) (x : List ℝ) : (unitQuaternion ae1 x).getD 1 0 = x.getD 1 0 := by
  unfold unitQuaternion
  split
  · dsimp only; split <;> rfl
  · rfl

/-- A free body that moves ahead at 1 m/s and turns at 1 rad/s, simulated with `euler` and steps of 1 s, from the heading 0 and from the heading of 180 degrees: after 2 s, it is at x = 2.5 m in the first
simulation, and at x = -3 m in the second one, instead of -2.5 m. -/
theorem orientation_matters (ae1 : ℝ → Bool) :
    ∃ f f' obs obs', quicksolve (simSystem (oneBody freeTop (fun _ a b => decide (a = b)) ae1) eulerMethod.stepper) 10
        ⟨vec13 0 ![1, 0, 0] ![0, 0, 1] ⟨1, 0, 0, 0⟩, noHistory, fun _ => none, [], 0⟩ 0 2 1 = some (.ok (f, obs)) ∧
      quicksolve (simSystem (oneBody freeTop (fun _ a b => decide (a = b)) ae1) eulerMethod.stepper) 10
        ⟨turnedStates Real.pi (vec13 0 ![1, 0, 0] ![0, 0, 1] ⟨1, 0, 0, 0⟩), noHistory, fun _ => none, [], 0⟩ 0 2 1 = some (.ok (f', obs')) ∧
      obs.map (fun o => (o.t, o.x.headD 0)) = [(0, 0), (1, 1), (2, 5 / 2)] ∧ obs'.map (fun o => (o.t, o.x.headD 0)) = [(0, 0), (1, -1), (2, -3)] ∧
      obs.map (fun o => (turnedStates Real.pi o.x).headD 0) = [0, -1, -5 / 2] := by
  have hM := mechanical_memoryless freeTop ⟨rfl, show "top" ≠ "NED" by decide, fun _ => rfl⟩ (fun _ a b => decide (a = b)) ae1 [] rfl (by simp) rfl (fun _ => none)
  have run : ∀ x : List ℝ, x.length = 13 → ∃ f obs, quicksolve (simSystem (oneBody freeTop (fun _ a b => decide (a = b)) ae1) eulerMethod.stepper) 10
      ⟨x, noHistory, fun _ => none, [], 0⟩ 0 2 1 = some (.ok (f, obs)) ∧ obs.map (fun o => (o.t, o.x)) =
        [(0, unitQuaternion ae1 x), (1, unitQuaternion ae1 (along x 1 (newton freeTop.body.Minv (fun _ => resultant freeTop.body []) x 0))),
          (2, unitQuaternion ae1 (along (along x 1 (newton freeTop.body.Minv (fun _ => resultant freeTop.body []) x 0)) 1 (newton freeTop.body.Minv (fun _ => resultant freeTop.body []) (along x 1 (newton freeTop.body.Minv (fun _ => resultant freeTop.body []) x 0)) 1)))] := by
    intro x hx
    obtain ⟨f, obs, h1, -, h3, h4⟩ := simulation_is_runge_kutta hM (fun _ a => by simp [oneBody]) eulerMethod euler_forward ⟨x, noHistory, fun _ => none, [], 0⟩ rfl hx (fun n => by cases n <;> rfl) 0 2 1 (by norm_num)
      (noHistory_notAfter _ _) 2 (by norm_num) (fun i hi => by
        have : (i : ℝ) ≤ 1 := by exact_mod_cast (by omega : i ≤ 1)
        linarith) 10 (by norm_num)
    refine ⟨f, obs, h1, ?_⟩
    apply List.ext_getElem
    · simp [h3]
    · intro i hi hi'
      have hi2 : i < obs.length := by simpa using hi
      obtain ⟨h5, h6⟩ := h4 i hi2
      have hlen := rkRun_length freeTop.body.Minv (fun _ => resultant freeTop.body []) eulerMethod x hx 0 1 i
      have h7 : obs[i].x = unitQuaternion ae1 (RK.rkRun (newton freeTop.body.Minv (fun _ => resultant freeTop.body [])) (fun x _ => x) eulerMethod x 0 1 i) :=
        (Except.ok.inj (((normalize_unitQuaternion ae1 _ hlen).1).symm.trans h6)).symm
      rw [List.getElem_map, h5, h7]
      have hi3 : i < 3 := by omega
      clear h5 h6 h7 hlen
      interval_cases i <;> simp [RK.rkRun, euler_textbook]
  obtain ⟨f, obs, h1, h2⟩ := run (vec13 0 ![1, 0, 0] ![0, 0, 1] ⟨1, 0, 0, 0⟩) rfl
  obtain ⟨f', obs', h1', h2'⟩ := run (turnedStates Real.pi (vec13 0 ![1, 0, 0] ![0, 0, 1] ⟨1, 0, 0, 0⟩)) rfl
  have hT : turnedStates Real.pi (vec13 0 ![1, 0, 0] ![0, 0, 1] ⟨1, 0, 0, 0⟩) = [0, 0, 0, 1, 0, 0, 0, 0, 1, 0, 0, 0, 1] := by
    simp [turnedStates, vec13, turnedVec, turnedQuat, Quat.mul]
  have hv : vec13 0 ![1, 0, 0] ![0, 0, 1] ⟨1, 0, 0, 0⟩ = ([0, 0, 0, 1, 0, 0, 0, 0, 1, 1, 0, 0, 0] : List ℝ) := by simp [vec13]
  refine ⟨f, f', obs, obs', h1, h1', ?_, ?_, ?_⟩
  · have := congrArg (List.map fun p => (p.1, p.2.headD 0)) h2
    rw [List.map_map] at this
    refine this.trans ?_
    simp only [List.map_cons, List.map_nil, unitQuaternion_head, hv, turning_newton, along, List.zipWith_cons_cons, List.zipWith_nil_left, List.headD_cons]
    norm_num
  · have := congrArg (List.map fun p => (p.1, p.2.headD 0)) h2'
    rw [List.map_map] at this
    refine this.trans ?_
    simp only [List.map_cons, List.map_nil, unitQuaternion_head, hT, turning_newton, along, List.zipWith_cons_cons, List.zipWith_nil_left, List.headD_cons]
    norm_num
  · have hx : ∀ x : List ℝ, x.length = 13 → (turnedStates Real.pi (unitQuaternion ae1 x)).headD 0 = -(x.headD 0) := by
      intro x hx
      rw [turnedStates_eq _ _ (normalize_unitQuaternion ae1 x hx).2, ← unitQuaternion_head ae1 x]
      generalize unitQuaternion ae1 x = y
      cases y <;> simp
    have := congrArg (List.map fun p => (turnedStates Real.pi p.2).headD 0) h2
    rw [List.map_map] at this
    refine this.trans ?_
    simp only [List.map_cons, List.map_nil]
    rw [hx _ (by rfl), hx _ (by rfl), hx _ (by rfl)]
    simp only [hv, turning_newton, along, List.zipWith_cons_cons, List.zipWith_nil_left, List.headD_cons]
    norm_num

/-! ### Concrete cases -/

/-- The barge kept by a dynamic positioning system at x = 10 m, y = 20 m, and the same barge kept at x = 1010 m, y = -480 m, that starts 1000 m to the north and 500 m to the west of the first one, an hour later: the
hypotheses of C195 are met. -/
example (psiOf : Mat3 ℝ → ℝ) (ae1 : ℝ → Bool) :
    let moved : Commands ℝ := fun s => if s = "DP(x_co)" then some 1010 else if s = "DP(y_co)" then some (-480) else if s = "DP(psi_co)" then some 2 else none
    ∃ f f' obs obs',
      quicksolve (simSystem (oneBody (bargeKept psiOf) (fun _ a b => decide (a = b)) ae1) rk4Method.stepper) 10
        ⟨vec13 ![12, 18, 0] ![1, 2, 3] ![0.1, 0.2, 0.3] ⟨3 / 5, 0, 0, 4 / 5⟩, noHistory, bargeCommands 2, [], 0⟩ 0 1 0.3 = some (.ok (f, obs)) ∧
      quicksolve (sscSystem (oneBody (bargeKept psiOf) (fun _ a b => decide (a = b)) ae1) rk4Method.stepper) 10
        ⟨vec13 ![1012, -482, 0] ![1, 2, 3] ![0.1, 0.2, 0.3] ⟨3 / 5, 0, 0, 4 / 5⟩, noHistory, moved, [], 0⟩ (0 + 3600) (1 + 3600) 0.3 = some (.ok (f', obs')) ∧
      obs.length = 4 + 1 ∧ (∀ o ∈ obs, o.x.length = 13) ∧ obs'.map (fun o => (o.t, o.x)) = obs.map (fun o => (o.t + 3600, shiftedStates ![1000, -500, 0] o.x)) := by
  intro moved
  refine simulation_moved (bargeKept psiOf) (bargeKept psiOf) ⟨rfl, show "barge" ≠ "NED" by decide, fun _ => rfl⟩ rfl _ (by simp) ae1 bargePushes rfl rfl (by simp [bargePushes, Push.InBody])
    [.stationKeeping ((1000 : ℝ) • (1 : Mat6 ℝ)) psiOf bargeKeeper 10 20 2] ![1000, -500, 0] rfl rfl ⟨_, noHistory, bargeCommands 2, [], 0⟩ ⟨_, noHistory, moved, [], 0⟩ ?_ ?_ rfl ?_ rk4Method rk4_forward 3600
    (fun n => by cases n <;> rfl) (fun n => by cases n <;> rfl) 0 1 0.3 (by norm_num) (noHistory_notAfter _ _) (noHistory_notAfter _ _) 4 (by norm_num) ?_ 10 (by norm_num) _ _ (Or.inl rfl) (Or.inr rfl)
  · simp only [List.mem_singleton, forall_eq]
    exact ⟨rfl, rfl, rfl⟩
  · simp only [List.mem_singleton, forall_eq]
    refine ⟨?_, ?_, rfl⟩
    · show some (1010 : ℝ) = some (10 + 1000)
      norm_num
    · show some (-480 : ℝ) = some (20 + -500)
      norm_num
  · simp [shiftedStates, vec13]
    norm_num
  · intro i hi
    have : (i : ℝ) ≤ 3 := by exact_mod_cast (by omega : i ≤ 3)
    linarith

/-- Inertia of a ship that is symmetric with respect to its centre plane: surge, heave and pitch are coupled, and so are sway, roll and yaw. -/
noncomputable def shipInertia : Mat6 ℝ := fun i j => if i = j then 1000 else if (i.val + j.val) % 2 = 0 then 10 else 0

/-- Centre of gravity in the centre plane. -/
noncomputable def ship : Multi.MBody ℝ where
  name := "ship"
  idx := 0
  blocked := ⟨fun _ => none, 0, fun _ => none, fun _ => none⟩
  G := ![1, 0, 2]
  Minv := shipInertia⁻¹
  coriolis := inertialForces shipInertia

theorem ship_mirror : IsMirror ship ship := by
  have h : mirrorMatrix shipInertia = shipInertia := by
    funext i j
    fin_cases i <;> fin_cases j <;> simp [mirrorMatrix, mirrorSign, shipInertia]
  refine isMirror_of_inertia ship ship shipInertia (by funext i; fin_cases i <;> simp [ship, mirrorVec]) rfl ?_ rfl (by rw [h]; rfl)
  rw [h]
  rfl

/-- Weight, damping, tow line to starboard. -/
noncomputable def shipPushes : List Push :=
  [.gravity ((1000 : ℝ) • 1) 9.81, .quadraticDamping 0 (Matrix.diagonal ![1, 2, 3, 4, 5, 6]), .resistance ![0, 0, 1] (fun u => u * |u|), .nedForce ![10, 20, 0] ![0, 0, 5] ![3, 1, 0]]

/-- The ship that turns to starboard with a tow line to starboard, and the ship that turns to port with a tow line to port: the hypotheses of C196 are met. -/
example (ae1 : ℝ → Bool) :
    ∃ f f' obs obs',
      quicksolve (simSystem (oneBody ⟨ship, shipPushes.map (Push.model ship), []⟩ (fun _ a b => decide (a = b)) ae1) rk4Method.stepper) 10
        ⟨vec13 ![12, 18, 0] ![1, 2, 3] ![0.1, 0.2, 0.3] ⟨3 / 5, 0, 0, 4 / 5⟩, noHistory, fun _ => none, [], 0⟩ 0 1 0.3 = some (.ok (f, obs)) ∧
      quicksolve (simSystem (oneBody ⟨ship, (shipPushes.map Push.mirrored).map (Push.model ship), []⟩ (fun _ a b => decide (a = b)) ae1) rk4Method.stepper) 10
        ⟨vec13 ![12, -18, 0] ![1, -2, 3] ![-0.1, 0.2, -0.3] ⟨3 / 5, 0, 0, -4 / 5⟩, noHistory, fun _ => none, [], 0⟩ 0 1 0.3 = some (.ok (f', obs')) ∧
      obs.length = 4 + 1 ∧ (∀ o ∈ obs, o.x.length = 13) ∧ obs'.map (fun o => (o.t, o.x)) = obs.map (fun o => (o.t, mirrorStates o.x)) :=
  simulation_mirrored _ _ ⟨rfl, show "ship" ≠ "NED" by decide, fun _ => rfl⟩ ⟨rfl, show "ship" ≠ "NED" by decide, fun _ => rfl⟩ ship_mirror _ (by simp) ae1 shipPushes rfl rfl
    (by simp [shipPushes, Push.InBody]) rfl rfl ⟨_, noHistory, _, [], 0⟩ ⟨_, noHistory, _, [], 0⟩ rfl (by simp [mirrorStates, vec13]; norm_num) rk4Method rk4_forward (fun n => by cases n <;> rfl) (fun n => by cases n <;> rfl) 0 1 0.3
    (by norm_num) (noHistory_notAfter _ _) (noHistory_notAfter _ _) 4 (by norm_num) (fun i hi => by
      have : (i : ℝ) ≤ 3 := by exact_mod_cast (by omega : i ≤ 3)
      linarith) 10 (by norm_num) _ _ (Or.inl rfl) (Or.inl rfl)

/-- The ship that pitches and heaves in its centre plane stays in it. -/
example (ae1 : ℝ → Bool) :
    ∃ f obs, quicksolve (simSystem (oneBody ⟨ship, (shipPushes.take 3).map (Push.model ship), []⟩ (fun _ a b => decide (a = b)) ae1) rk4Method.stepper) 10
        ⟨[12, 0, 0, 1, 0, 3, 0, 0.2, 0, 3 / 5, 0, 4 / 5, 0], noHistory, fun _ => none, [], 0⟩ 0 1 0.3 = some (.ok (f, obs)) ∧ obs.length = 4 + 1 ∧
      ∀ o ∈ obs, ∃ x z u w q qr qj : ℝ, o.x = [x, 0, z, u, 0, w, 0, q, 0, qr, 0, qj, 0] := by
  refine stays_in_plane _ ⟨rfl, show "ship" ≠ "NED" by decide, fun _ => rfl⟩ ship_mirror _ (by simp) ae1 (shipPushes.take 3) rfl ?_ ?_ rfl ⟨[12, 0, 0, 1, 0, 3, 0, 0.2, 0, 3 / 5, 0, 4 / 5, 0], noHistory, _, [], 0⟩ 12 0 1 3 0.2 (3 / 5) (4 / 5) rfl rk4Method
    rk4_forward (fun n => by cases n <;> rfl) 0 1 0.3
    (by norm_num) (noHistory_notAfter _ _) 4 (by norm_num) (fun i hi => by
      have : (i : ℝ) ≤ 3 := by exact_mod_cast (by omega : i ≤ 3)
      linarith) 10 (by norm_num) _ (Or.inl rfl)
  rotate_left
  · simp [shipPushes, Push.InBody]
  have h0 : mirrorVec 0 = 0 := by funext i; fin_cases i <;> simp [mirrorVec]
  have h1 : mirrorMatrix (Matrix.diagonal ![1, 2, 3, 4, 5, 6]) = Matrix.diagonal ![1, 2, 3, 4, 5, 6] := by
    funext i j
    fin_cases i <;> fin_cases j <;> simp [mirrorMatrix, mirrorSign]
  have h2 : mirrorVec ![0, 0, 1] = ![0, 0, 1] := by funext i; fin_cases i <;> simp [mirrorVec]
  simp [shipPushes, Push.mirrored, h0, h1, h2]

/-- The barge adrift, pushed to the east from the heading 37 degrees, and the same barge pushed in a direction turned by `a`, from a heading turned by `a`: the hypotheses of C197 are met. -/
example (a : ℝ) (ae1 : ℝ → Bool) :
    let l : List Push := [.gravity ((1000 : ℝ) • 1) 9.81, .nedForce ![0, 100, -9810] 0 0]
    ∃ f f' obs obs',
      quicksolve (simSystem (oneBody ⟨barge, l.map (Push.model barge), []⟩ (fun _ a b => decide (a = b)) ae1) rk4Method.stepper) 10
        ⟨vec13 ![12, 18, 0] ![1, 2, 3] 0 ⟨4 / 5, 0, 0, 3 / 5⟩, noHistory, fun _ => none, [], 0⟩ 0 1 0.3 = some (.ok (f, obs)) ∧
      quicksolve (simSystem (oneBody ⟨barge, (l.map (Push.turned a)).map (Push.model barge), []⟩ (fun _ a b => decide (a = b)) ae1) rk4Method.stepper) 10
        ⟨vec13 (turnedVec a ![12, 18, 0]) ![1, 2, 3] 0 (turnedQuat a ⟨4 / 5, 0, 0, 3 / 5⟩), noHistory, fun _ => none, [], 0⟩ 0 1 0.3 = some (.ok (f', obs')) ∧
      obs.length = 4 + 1 ∧ (∀ o ∈ obs, o.x.length = 13) ∧ obs'.map (fun o => (o.t, o.x)) = obs.map (fun o => (o.t, turnedStates a o.x)) := by
  intro l
  have hst : Steady barge l ⟨4 / 5, 0, 0, 3 / 5⟩ := by
    intro u F i
    have hF : F.2 = 0 := by
      simp only [F, resultant, barge, l, List.map_cons, List.map_nil, List.sum_cons, List.sum_nil, Push.wrench, sub_zero, Prod.snd_add]
      have e1 : ∀ v : Vec3 ℝ, cross (0 : Vec3 ℝ) v = 0 := fun v => by funext i; fin_cases i <;> simp [cross]
      simp [e1]
    rw [hF]
    simp only [barge, Matrix.smul_mulVec, Matrix.one_mulVec]
    fin_cases i <;> simp
  have hcen : ∀ f ∈ l, f.Central barge.G := by simp [l, Push.Central, barge]
  have hb : ∀ f ∈ l, ¬ f.InBody := by simp [l, Push.InBody]
  clear_value l
  exact simulation_turned_partial ⟨barge, l.map (Push.model barge), []⟩ ⟨barge, (l.map (Push.turned a)).map (Push.model barge), []⟩ ⟨rfl, show "barge" ≠ "NED" by decide, fun _ => rfl⟩ rfl _ (by simp) ae1 l hcen rfl a rfl hb rfl rfl ![12, 18, 0] ![1, 2, 3] ⟨4 / 5, 0, 0, 3 / 5⟩
    (by norm_num [Unit4]) hst ⟨_, noHistory, _, [], 0⟩ ⟨_, noHistory, _, [], 0⟩ rfl rfl rk4Method rk4_forward (fun n => by cases n <;> rfl) (fun n => by cases n <;> rfl) 0 1 0.3
    (by norm_num) (noHistory_notAfter _ _) (noHistory_notAfter _ _) 4 (by norm_num) (fun i hi => by
      have : (i : ℝ) ≤ 3 := by exact_mod_cast (by omega : i ≤ 3)
      linarith) 10 (by norm_num) _ _ (Or.inl rfl) (Or.inl rfl)

end Xdyn.Sim

import Verif.Spec.Spin
import Verif.Props.Chain
import Mathlib.Analysis.SpecialFunctions.Trigonometric.ArctanDeriv
import Mathlib.Analysis.SpecialFunctions.Complex.Arctan

/-! Property C186: a body that spins. -/

namespace Xdyn.Sim

open Blocked Body Spec Solver

/-- A body at `P` that turns at the rate `w` without moving, whatever its attitude: its force models `l`, its controllers `cs` and the inertial forces
balance each other (for instance: a body turning about a principal axis of inertia, its weight being carried at the centre of gravity). -/
structure Spinning (e : Multi.Entry ℝ) (l : List Push) (cs : List Control) (cmd : Commands ℝ) (P w : Vec3 ℝ) : Prop extends Alone e where
  forces : e.forces = l.map (Push.model e.body)
  outside : ∀ f ∈ l, ¬ f.InBody
  controlled : e.controlled = cs.map (Control.model e.body)
  commanded : ∀ c ∈ cs, c.Commanded cmd
  balanced : ∀ q, total e.body l cs P 0 w q = 0

def unitAxis (n : Vec3 ℝ) : Prop := n 0 ^ 2 + n 1 ^ 2 + n 2 ^ 2 = 1

theorem mul_turn (q : Quat ℝ) {n : Vec3 ℝ} (hn : unitAxis n) (z z' : ℂ) : (q.mul (turn n z)).mul (turn n z') = q.mul (turn n (z * z')) := by
  unfold unitAxis at hn
  simp only [Quat.mul, turn, Complex.mul_re, Complex.mul_im, Quat.mk.injEq]
  refine ⟨?_, ?_, ?_, ?_⟩ <;> grind

/-- Derivatives of the states of such a body. -/
theorem newton_spinning {e : Multi.Entry ℝ} {l : List Push} {cs : List Control} {cmd : Commands ℝ} {P n : Vec3 ℝ} {om : ℝ}
    (he : Spinning e l cs cmd P (om • n)) (hn : unitAxis n) (q : Quat ℝ) (z : ℂ) (t : ℝ) :
    newton e.body.Minv (total e.body l cs) (vec13 P 0 (om • n) (q.mul (turn n z))) t =
      vec13 0 0 0 (q.mul (turn n (z * (⟨0, om / 2⟩ : ℂ)))) := by
  have hP : (![P 0, P 1, P 2] : Vec3 ℝ) = P := by funext i; fin_cases i <;> rfl
  have hw : (![(om • n) 0, (om • n) 1, (om • n) 2] : Vec3 ℝ) = om • n := by funext i; fin_cases i <;> rfl
  have e0 : (![0, 0, 0] : Vec3 ℝ) = 0 := by funext i; fin_cases i <;> rfl
  have e6 : (Matrix.vecCons 0 (Matrix.vecCons 0 (Matrix.vecCons 0 (0 : Vec3 ℝ))) : Vec6 ℝ) = 0 := by funext i; fin_cases i <;> rfl
  simp only [newton, vec13, hP, hw, e0, he.balanced, Prod.fst_zero, Prod.snd_zero, Pi.zero_apply, e6, Matrix.mulVec_zero, List.cons.injEq,
    and_true, true_and]
  unfold unitAxis at hn
  simp only [Quat.mul, turn, Complex.mul_re, Complex.mul_im, Pi.smul_apply, smul_eq_mul]
  refine ⟨?_, ?_, ?_, ?_⟩ <;> grind

theorem along_spin (P w n : Vec3 ℝ) (q : Quat ℝ) (z z' : ℂ) (c : ℝ) :
    along (vec13 P 0 w (q.mul (turn n z))) c (vec13 0 0 0 (q.mul (turn n z'))) = vec13 P 0 w (q.mul (turn n (z + c * z'))) := by
  simp only [along, vec13, List.zipWith_cons_cons, List.zipWith_nil_left, List.cons.injEq, Pi.zero_apply, mul_zero, add_zero, and_true, true_and]
  simp only [Quat.mul, turn, Complex.add_re, Complex.add_im, Complex.re_ofReal_mul, Complex.im_ofReal_mul]
  refine ⟨?_, ?_, ?_, ?_⟩ <;> ring

theorem turn_one (q : Quat ℝ) (n : Vec3 ℝ) : q.mul (turn n 1) = q := by
  cases q; simp [Quat.mul, turn]

theorem euler_spin {e : Multi.Entry ℝ} {l : List Push} {cs : List Control} {cmd : Commands ℝ} {P n : Vec3 ℝ} {om : ℝ}
    (he : Spinning e l cs cmd P (om • n)) (hn : unitAxis n) (q : Quat ℝ) (t0 dt : ℝ) : ∀ i,
    RK.rkRun (newton e.body.Minv (total e.body l cs)) (fun x _ => x) eulerMethod (vec13 P 0 (om • n) q) t0 dt i =
      vec13 P 0 (om • n) (q.mul (turn n (eulerMode (⟨0, om * dt / 2⟩ : ℂ) ^ i)))
  | 0 => by rw [RK.rkRun, pow_zero, turn_one]
  | i + 1 => by
    rw [RK.rkRun, euler_spin he hn q t0 dt i, euler_textbook, newton_spinning he hn, along_spin]
    congr 3
    rw [pow_succ, eulerMode, show (⟨0, om * dt / 2⟩ : ℂ) = (dt : ℂ) * ⟨0, om / 2⟩ by apply Complex.ext <;> simp; ring]
    ring

theorem rk4_spin {e : Multi.Entry ℝ} {l : List Push} {cs : List Control} {cmd : Commands ℝ} {P n : Vec3 ℝ} {om : ℝ}
    (he : Spinning e l cs cmd P (om • n)) (hn : unitAxis n) (q : Quat ℝ) (t0 dt : ℝ) : ∀ i,
    RK.rkRun (newton e.body.Minv (total e.body l cs)) (fun x _ => x) rk4Method (vec13 P 0 (om • n) q) t0 dt i =
      vec13 P 0 (om • n) (q.mul (turn n (rk4Mode (⟨0, om * dt / 2⟩ : ℂ) ^ i)))
  | 0 => by rw [RK.rkRun, pow_zero, turn_one]
  | i + 1 => by
    rw [RK.rkRun, rk4_spin he hn q t0 dt i, rk4_textbook 13 _ ?_ _ rfl]
    · simp only [newton_spinning he hn, along_spin]
      congr 3
      rw [pow_succ, rk4Mode, show (⟨0, om * dt / 2⟩ : ℂ) = (dt : ℂ) * ⟨0, om / 2⟩ by apply Complex.ext <;> simp; ring]
      push_cast
      ring
    · intro x t hx
      match x, hx with
      | [a, b, c, d, e, f, g, h, i, j, k, l, m], _ => rfl

theorem norm_mul_turn (q : Quat ℝ) (hq : Unit4 q) {n : Vec3 ℝ} (hn : unitAxis n) (z : ℂ) :
    Real.sqrt ((q.mul (turn n z)).w ^ 2 + (q.mul (turn n z)).x ^ 2 + (q.mul (turn n z)).y ^ 2 + (q.mul (turn n z)).z ^ 2) = ‖z‖ := by
  rw [Complex.norm_def, Complex.normSq_apply]
  congr 1
  unfold unitAxis at hn
  unfold Unit4 at hq
  have : (q.mul (turn n z)).w ^ 2 + (q.mul (turn n z)).x ^ 2 + (q.mul (turn n z)).y ^ 2 + (q.mul (turn n z)).z ^ 2 =
      (q.w ^ 2 + q.x ^ 2 + q.y ^ 2 + q.z ^ 2) * (z.re ^ 2 + z.im ^ 2 * (n 0 ^ 2 + n 1 ^ 2 + n 2 ^ 2)) := by
    simp only [Quat.mul, turn]; ring
  rw [this, hq, hn]; ring

/-- What is observed when the quaternion is `q` times that of `(c e^{i a})^k`. -/
theorem observed_spin (ae1 : ℝ → Bool) (P w : Vec3 ℝ) (q : Quat ℝ) (hq : Unit4 q) {n : Vec3 ℝ} (hn : unitAxis n) (R : ℂ) (rho alpha : ℝ)
    (hrho : 0 < rho) (hR : R = rho * Complex.exp (alpha * Complex.I)) (k : Nat) :
    Server.unitQuaternion ae1 (vec13 P 0 w (q.mul (turn n (R ^ k)))) =
      vec13 P 0 w (Quat.scale (if ae1 (rho ^ k) then rho ^ k else 1) (turned q n (k * (2 * alpha)))) := by
  have hnorm : ‖R‖ = rho := by
    rw [hR, norm_mul, Complex.norm_exp_ofReal_mul_I, mul_one, Complex.norm_real, Real.norm_of_nonneg hrho.le]
  have hRk : R ^ k = ((rho ^ k : ℝ) : ℂ) * Complex.exp ((k * alpha : ℝ) * Complex.I) := by
    rw [hR, mul_pow, ← Complex.exp_nat_mul]; push_cast; ring_nf
  have hre : (R ^ k).re = rho ^ k * Real.cos (k * alpha) := by
    rw [hRk, Complex.re_ofReal_mul, Complex.exp_ofReal_mul_I_re]
  have him : (R ^ k).im = rho ^ k * Real.sin (k * alpha) := by
    rw [hRk, Complex.im_ofReal_mul, Complex.exp_ofReal_mul_I_im]
  have hn4 := norm_mul_turn q hq hn (R ^ k)
  rw [norm_pow, hnorm] at hn4
  have e2 : (k : ℝ) * (2 * alpha) / 2 = k * alpha := by ring
  have hp : rho ^ k ≠ 0 := (pow_pos hrho k).ne'
  have hQ : q.mul (turn n (R ^ k)) = Quat.scale (rho ^ k) (turned q n (k * (2 * alpha))) := by
    simp only [turned, e2, Quat.scale, Quat.mul, turn, hre, him, Quat.mk.injEq]
    refine ⟨?_, ?_, ?_, ?_⟩ <;> ring
  simp only [Server.unitQuaternion, vec13, hn4]
  by_cases h : ae1 (rho ^ k) = true
  · simp only [h, if_true, hQ]
  · simp only [h, hQ, Quat.scale]
    simp [mul_div_cancel_left₀, hp]

theorem euler_factor (y : ℝ) : eulerMode (⟨0, y⟩ : ℂ) = (Real.sqrt (1 + y ^ 2) : ℝ) * Complex.exp ((Real.arctan y : ℝ) * Complex.I) := by
  have h : (0 : ℝ) < 1 + y ^ 2 := by positivity
  have hs : Real.sqrt (1 + y ^ 2) ≠ 0 := (Real.sqrt_pos.2 h).ne'
  apply Complex.ext
  · rw [Complex.re_ofReal_mul, Complex.exp_ofReal_mul_I_re, Real.cos_arctan]
    simp [eulerMode, hs]
  · rw [Complex.im_ofReal_mul, Complex.exp_ofReal_mul_I_im, Real.sin_arctan]
    simp [eulerMode]
    field_simp

theorem arctan_bounds (y : ℝ) (hy : 0 ≤ y) : y - y ^ 3 / 3 ≤ Real.arctan y ∧ Real.arctan y ≤ y := by
  have h1 : Monotone fun x : ℝ => Real.arctan x - x + x ^ 3 / 3 := by
    refine monotone_of_deriv_nonneg ((Real.differentiable_arctan.sub differentiable_id).add ((differentiable_pow 3).div_const 3)) fun x => ?_
    have h : HasDerivAt (fun x : ℝ => Real.arctan x - x + x ^ 3 / 3) (1 / (1 + x ^ 2) - 1 + (3 * x ^ 2) / 3) x := by
      have := ((Real.hasDerivAt_arctan x).sub (hasDerivAt_id x)).add ((hasDerivAt_pow 3 x).div_const 3)
      refine this.congr_deriv (by norm_num)
    rw [h.deriv]
    have hp : (0 : ℝ) < 1 + x ^ 2 := by positivity
    rw [show 1 / (1 + x ^ 2) - 1 + (3 * x ^ 2) / 3 = x ^ 4 / (1 + x ^ 2) by field_simp; ring]
    positivity
  have h2 : Monotone fun x : ℝ => x - Real.arctan x := by
    refine monotone_of_deriv_nonneg (differentiable_id.sub Real.differentiable_arctan) fun x => ?_
    have h : HasDerivAt (fun x : ℝ => x - Real.arctan x) (1 - 1 / (1 + x ^ 2)) x := (hasDerivAt_id x).sub (Real.hasDerivAt_arctan x)
    rw [h.deriv]
    have hp : (0 : ℝ) < 1 + x ^ 2 := by positivity
    rw [show 1 - 1 / (1 + x ^ 2) = x ^ 2 / (1 + x ^ 2) by field_simp; ring]
    positivity
  have a := h1 hy
  have b := h2 hy
  simp only [Real.arctan_zero] at a b
  constructor <;> linarith

theorem arctan_error (y : ℝ) : |Real.arctan y - y| ≤ |y| ^ 3 / 3 ∧ |Real.arctan y| ≤ |y| := by
  rcases le_total 0 y with h | h
  · obtain ⟨a, b⟩ := arctan_bounds y h
    have c : 0 ≤ Real.arctan y := by simpa using Real.arctan_strictMono.monotone h
    rw [abs_of_nonneg h, abs_of_nonneg c, abs_of_nonpos (by linarith)]
    constructor <;> linarith
  · obtain ⟨a, b⟩ := arctan_bounds (-y) (by linarith)
    have c : Real.arctan y ≤ 0 := by simpa using Real.arctan_strictMono.monotone h
    rw [Real.arctan_neg] at a b
    rw [abs_of_nonpos h, abs_of_nonpos c, abs_of_nonneg (by linarith)]
    constructor <;> linarith

/-- `rk4` turns by `y` with an error of the fifth order. -/
theorem rk4_factor (y : ℝ) (hy : |y| ≤ 1) :
    ∃ rho alpha, 0 < rho ∧ |rho - 1| ≤ |y| ^ 5 / 100 ∧ |alpha - y| ≤ |y| ^ 5 / 99 ∧
      rk4Mode (⟨0, y⟩ : ℂ) = (rho : ℝ) * Complex.exp ((alpha : ℝ) * Complex.I) := by
  set x : ℂ := ⟨0, y⟩ with hx
  have hxy : x = (y : ℂ) * Complex.I := by apply Complex.ext <;> simp [hx]
  have hnx : ‖x‖ = |y| := by rw [hxy, norm_mul, Complex.norm_I, mul_one, Complex.norm_real, Real.norm_eq_abs]
  have hb := Complex.exp_bound (x := x) (by rw [hnx]; exact hy) (n := 5) (by norm_num)
  have hsum : ∑ m ∈ Finset.range 5, x ^ m / (m.factorial : ℂ) = rk4Mode x := by
    simp [Finset.sum_range_succ, rk4Mode, Nat.factorial]
  rw [hsum, hnx] at hb
  set z : ℂ := rk4Mode x * Complex.exp (-x) with hz
  have hen : ‖Complex.exp (-x)‖ = 1 := by
    rw [hxy, ← neg_mul, ← Complex.ofReal_neg, Complex.norm_exp_ofReal_mul_I]
  set d : ℝ := |y| ^ 5 / 100 with hd
  have hz1 : ‖z - 1‖ ≤ d := by
    have : z - 1 = -((Complex.exp x - rk4Mode x) * Complex.exp (-x)) := by
      rw [hz, sub_mul, ← Complex.exp_add, add_neg_cancel, Complex.exp_zero]; ring
    rw [this, norm_neg, norm_mul, hen, mul_one]
    refine hb.trans (le_of_eq ?_)
    rw [hd]; norm_num [Nat.factorial]; ring
  have hd1 : d ≤ 1 / 100 := by
    have : |y| ^ 5 ≤ 1 := pow_le_one₀ (abs_nonneg _) hy
    rw [hd]; linarith
  have hd0 : 0 ≤ d := by positivity
  have hre : 1 - d ≤ z.re := by
    have := (Complex.abs_re_le_norm (z - 1)).trans hz1
    rw [Complex.sub_re, Complex.one_re, abs_le] at this
    linarith [this.1]
  have him : |z.im| ≤ d := by
    have := (Complex.abs_im_le_norm (z - 1)).trans hz1
    simpa using this
  have hre0 : 0 < z.re := by linarith
  set t : ℝ := z.im / z.re with ht
  have hzt : z = (z.re : ℂ) * eulerMode (⟨0, t⟩ : ℂ) := by
    apply Complex.ext
    · rw [Complex.re_ofReal_mul]; simp [eulerMode]
    · rw [Complex.im_ofReal_mul]; simp [eulerMode, ht]; field_simp
  have hzn : ‖z‖ = z.re * Real.sqrt (1 + t ^ 2) := by
    conv_lhs => rw [hzt, euler_factor]
    rw [norm_mul, norm_mul, Complex.norm_exp_ofReal_mul_I, Complex.norm_real, Complex.norm_real, mul_one, Real.norm_of_nonneg hre0.le,
      Real.norm_of_nonneg (Real.sqrt_nonneg _)]
  refine ⟨z.re * Real.sqrt (1 + t ^ 2), y + Real.arctan t, by positivity, ?_, ?_, ?_⟩
  · rw [← hzn]
    have := abs_norm_sub_norm_le z 1
    rw [norm_one] at this
    exact this.trans hz1
  · rw [add_sub_cancel_left]
    refine (arctan_error t).2.trans ?_
    rw [ht, abs_div, abs_of_pos hre0, div_le_iff₀ hre0]
    calc |z.im| ≤ d := him
      _ = |y| ^ 5 / 99 * (1 - 1 / 100) := by rw [hd]; ring
      _ ≤ |y| ^ 5 / 99 * z.re := by
        refine mul_le_mul_of_nonneg_left (by linarith) (by positivity)
  · have h1 : rk4Mode x = z * Complex.exp x := by
      rw [hz, mul_assoc, ← Complex.exp_add, neg_add_cancel, Complex.exp_zero, mul_one]
    rw [h1]
    conv_lhs => rw [hzt, euler_factor, hxy]
    rw [Complex.ofReal_add, add_mul, Complex.exp_add]
    push_cast
    ring

theorem matrix_mul_quat (a b : Quat ℝ) (ha : Unit4 a) (hb : Unit4 b) : (a.mul b).matrix = a.matrix * b.matrix := by
  unfold Unit4 at ha hb
  ext i j
  fin_cases i <;> fin_cases j <;> simp [Quat.matrix, Quat.mul, Matrix.mul_apply, Fin.sum_univ_succ] <;> grind

/-- The attitude `turned` from `q`: the vectors of the body are turned by `phi` about `n`, then by the attitude `q`. -/
theorem turned_matrix (q : Quat ℝ) (hq : Unit4 q) {n : Vec3 ℝ} (hn : unitAxis n) (phi : ℝ) (v : Vec3 ℝ) :
    Unit4 (turned q n phi) ∧ (turned q n phi).matrix.mulVec v = q.matrix.mulVec (rotated n phi v) := by
  have hsc := Real.sin_sq_add_cos_sq (phi / 2)
  have h2 : Real.cos phi = 2 * Real.cos (phi / 2) ^ 2 - 1 := by rw [← Real.cos_two_mul]; ring_nf
  have h3 : Real.sin phi = 2 * Real.sin (phi / 2) * Real.cos (phi / 2) := by rw [← Real.sin_two_mul]; ring_nf
  set c := Real.cos (phi / 2)
  set s := Real.sin (phi / 2)
  unfold unitAxis at hn
  have hu : Unit4 (⟨c, s * n 0, s * n 1, s * n 2⟩ : Quat ℝ) := by unfold Unit4; dsimp only; grind
  constructor
  · unfold Unit4 at hq hu ⊢
    have : (turned q n phi).w ^ 2 + (turned q n phi).x ^ 2 + (turned q n phi).y ^ 2 + (turned q n phi).z ^ 2 =
      (q.w ^ 2 + q.x ^ 2 + q.y ^ 2 + q.z ^ 2) * (c ^ 2 + (s * n 0) ^ 2 + (s * n 1) ^ 2 + (s * n 2) ^ 2) := by
      simp only [turned, Quat.mul, c, s]; ring
    rw [this, hq]; dsimp only at hu; rw [hu]; ring
  · rw [turned, matrix_mul_quat q _ hq hu, ← Matrix.mulVec_mulVec]
    congr 1
    change (⟨c, s * n 0, s * n 1, s * n 2⟩ : Quat ℝ).matrix.mulVec v = _
    clear_value c s
    funext i
    fin_cases i <;> simp [rotated, cross, dot, Quat.matrix, Matrix.mulVec, dotProduct, Fin.sum_univ_succ, h2, h3, Matrix.vecHead, Matrix.vecTail] <;> grind

/-- The observations of a body that spins, from the runs of the method. -/
theorem spin_observations {e : Multi.Entry ℝ} {l : List Push} {cs : List Control} {P n : Vec3 ℝ} {om : ℝ}
    (s : Sim ℝ (Vec3 ℝ × Vec3 ℝ)) (he : Spinning e l cs s.commands P (om • n)) (hn : unitAxis n) (q : Quat ℝ) (hq : Unit4 q)
    (ae : Nat → ℝ → ℝ → Bool) (hae : ∀ n a, ae n a a = true) (ae1 : ℝ → Bool)
    (T : Tableau ℝ) (hT : Forward T) (hs : s.state = vec13 P 0 (om • n) q)
    (h0 : ∀ n, (field s.hist n).Tmax = 0) (tstart tend dt : ℝ) (hdt : 0 < dt) (hh : NotAfter ae s.hist tstart)
    (N : Nat) (hN : tend ≤ tstart + N * dt) (hfirst : ∀ i < N, tstart + (i : ℝ) * dt < tend) (fuel : Nat) (hf : N ≤ fuel)
    (R : ℂ) (hrun : ∀ i, RK.rkRun (newton e.body.Minv (total e.body l cs)) (fun x _ => x) T (vec13 P 0 (om • n) q) tstart dt i =
      vec13 P 0 (om • n) (q.mul (turn n (R ^ i))))
    (rho alpha : ℝ) (hrho : 0 < rho) (hR : R = rho * Complex.exp (alpha * Complex.I)) :
    ∃ s' obs, quicksolve (simSystem (oneBody e ae ae1) T.stepper) fuel s tstart tend dt = some (.ok (s', obs)) ∧
      obs.map (fun o => (o.t, o.x)) = (List.range (N + 1)).map (fun i : Nat => (tstart + i * dt,
        vec13 P 0 (om • n) (Quat.scale (if ae1 (rho ^ i) then rho ^ i else 1) (turned q n (i * (2 * alpha)))))) := by
  obtain ⟨s', obs, h1, -, h3, h4⟩ := simulation_is_runge_kutta
    (controlled_memoryless e he.toAlone ae ae1 l he.forces he.outside cs he.controlled s.commands he.commanded) hae T hT s rfl
    (by rw [hs]; rfl) h0 tstart tend dt hdt hh N hN hfirst fuel hf
  refine ⟨s', obs, h1, List.ext_getElem (by simp [h3]) fun i a b => ?_⟩
  have hi : i < obs.length := by simpa using a
  obtain ⟨h5, h6⟩ := h4 i hi
  have h7 : (oneBody e ae ae1).normalize (vec13 P 0 (om • n) (q.mul (turn n (R ^ i)))) = _ :=
    (Server.normalize_unitQuaternion ae1 _ rfl).1
  rw [hs, hrun, h7, observed_spin ae1 P _ q hq hn R rho alpha hrho hR] at h6
  simp only [List.getElem_map, List.getElem_range, h5, Except.ok.inj h6]

/-- **C186** A body that spins, with `euler`: the rate of turn and the position do not change, and the attitude turns about the same axis by
`2 arctan (om dt / 2)` at each step. -/
theorem spin_euler {e : Multi.Entry ℝ} {l : List Push} {cs : List Control} {P n : Vec3 ℝ} {om : ℝ}
    (s : Sim ℝ (Vec3 ℝ × Vec3 ℝ)) (he : Spinning e l cs s.commands P (om • n)) (hn : unitAxis n) (q : Quat ℝ) (hq : Unit4 q)
    (ae : Nat → ℝ → ℝ → Bool) (hae : ∀ n a, ae n a a = true) (ae1 : ℝ → Bool) (hs : s.state = vec13 P 0 (om • n) q)
    (h0 : ∀ n, (field s.hist n).Tmax = 0) (tstart tend dt : ℝ) (hdt : 0 < dt) (hh : NotAfter ae s.hist tstart)
    (N : Nat) (hN : tend ≤ tstart + N * dt) (hfirst : ∀ i < N, tstart + (i : ℝ) * dt < tend) (fuel : Nat) (hf : N ≤ fuel) :
    ∃ s' obs, quicksolve (simSystem (oneBody e ae ae1) eulerMethod.stepper) fuel s tstart tend dt = some (.ok (s', obs)) ∧
      obs.map (fun o => (o.t, o.x)) = (List.range (N + 1)).map (fun i : Nat => (tstart + i * dt,
        vec13 P 0 (om • n) (Quat.scale (if ae1 (Real.sqrt (1 + (om * dt / 2) ^ 2) ^ i) then Real.sqrt (1 + (om * dt / 2) ^ 2) ^ i else 1)
          (turned q n (i * (2 * Real.arctan (om * dt / 2))))))) :=
  spin_observations s he hn q hq ae hae ae1 eulerMethod euler_forward hs h0 tstart tend dt hdt hh N hN hfirst fuel hf _
    (euler_spin he hn q tstart dt) _ _ (by positivity) (euler_factor _)

/-- **C186** The error of `euler`: of the third order in the angle `a = om dt` of a step, and always less than half a turn is done in a step. -/
theorem euler_turn (a : ℝ) : |2 * Real.arctan (a / 2) - a| ≤ |a| ^ 3 / 12 ∧ |2 * Real.arctan (a / 2)| < Real.pi ∧
    (a ≠ 0 → |2 * Real.arctan (a / 2)| < |a|) := by
  have key : ∀ y : ℝ, 0 < y → Real.arctan y < y := fun y hy => by
    have := Real.lt_tan (by simpa using Real.arctan_strictMono hy) (Real.arctan_lt_pi_div_two y)
    rwa [Real.tan_arctan] at this
  refine ⟨?_, ?_, fun ha => ?_⟩
  · have := (arctan_error (a / 2)).1
    rw [show 2 * Real.arctan (a / 2) - a = 2 * (Real.arctan (a / 2) - a / 2) by ring, abs_mul, abs_two]
    rw [abs_div a 2, abs_two] at this
    calc 2 * |Real.arctan (a / 2) - a / 2| ≤ 2 * ((|a| / 2) ^ 3 / 3) := by linarith
      _ = |a| ^ 3 / 12 := by ring
  · rw [abs_lt]
    constructor <;> linarith [Real.arctan_lt_pi_div_two (a / 2), Real.neg_pi_div_two_lt_arctan (a / 2)]
  · rcases lt_or_gt_of_ne ha with h | h
    · have h1 := key (-a / 2) (by linarith)
      rw [neg_div, Real.arctan_neg] at h1
      have h2 : Real.arctan (a / 2) < 0 := by simpa using Real.arctan_strictMono (show a / 2 < 0 by linarith)
      rw [abs_of_neg h, abs_of_neg (by linarith)]
      linarith
    · have h1 := key (a / 2) (by linarith)
      have h2 : 0 < Real.arctan (a / 2) := by simpa using Real.arctan_strictMono (show 0 < a / 2 by linarith)
      rw [abs_of_pos h, abs_of_pos (by linarith)]
      linarith

/-- **C186** Same with `rk4`: the angle of a step is `om dt`, with an error of the fifth order. -/
theorem spin_rk4 {e : Multi.Entry ℝ} {l : List Push} {cs : List Control} {P n : Vec3 ℝ} {om : ℝ}
    (s : Sim ℝ (Vec3 ℝ × Vec3 ℝ)) (he : Spinning e l cs s.commands P (om • n)) (hn : unitAxis n) (q : Quat ℝ) (hq : Unit4 q)
    (ae : Nat → ℝ → ℝ → Bool) (hae : ∀ n a, ae n a a = true) (ae1 : ℝ → Bool) (hs : s.state = vec13 P 0 (om • n) q)
    (h0 : ∀ n, (field s.hist n).Tmax = 0) (tstart tend dt : ℝ) (hdt : 0 < dt) (hh : NotAfter ae s.hist tstart)
    (N : Nat) (hN : tend ≤ tstart + N * dt) (hfirst : ∀ i < N, tstart + (i : ℝ) * dt < tend) (fuel : Nat) (hf : N ≤ fuel)
    (hom : |om * dt| ≤ 2) :
    ∃ angle rho : ℝ, |angle - om * dt| ≤ |om * dt| ^ 5 / 1584 ∧ 0 < rho ∧ |rho - 1| ≤ |om * dt| ^ 5 / 3200 ∧
    ∃ s' obs, quicksolve (simSystem (oneBody e ae ae1) rk4Method.stepper) fuel s tstart tend dt = some (.ok (s', obs)) ∧
      obs.map (fun o => (o.t, o.x)) = (List.range (N + 1)).map (fun i : Nat => (tstart + i * dt,
        vec13 P 0 (om • n) (Quat.scale (if ae1 (rho ^ i) then rho ^ i else 1) (turned q n (i * angle))))) := by
  have e1 : |om * dt / 2| = |om * dt| / 2 := by rw [abs_div, abs_two]
  obtain ⟨rho, alpha, h1, h2, h3, h4⟩ := rk4_factor (om * dt / 2) (by rw [e1]; linarith)
  rw [e1] at h2 h3
  refine ⟨2 * alpha, rho, ?_, h1, h2.trans (le_of_eq (by ring)), ?_⟩
  · rw [show 2 * alpha - om * dt = 2 * (alpha - om * dt / 2) by ring, abs_mul, abs_two]
    calc 2 * |alpha - om * dt / 2| ≤ 2 * ((|om * dt| / 2) ^ 5 / 99) := by linarith
      _ = |om * dt| ^ 5 / 1584 := by ring
  · exact spin_observations s he hn q hq ae hae ae1 rk4Method rk4_forward hs h0 tstart tend dt hdt hh N hN hfirst fuel hf _
      (rk4_spin he hn q tstart dt) _ _ h1 h4

/-! ### A concrete case -/

/-- The ball without forces of C185 spins. -/
theorem top_spins (P w : Vec3 ℝ) (cmd : Commands ℝ) : Spinning Server.freeTop [] [] cmd P w where
  idx := rfl
  name := show "top" ≠ "NED" by decide
  free _ := rfl
  forces := rfl
  outside := by simp
  controlled := rfl
  commanded := by simp
  balanced q := by
    have : cross (0 : Vec3 ℝ) w = 0 := by funext i; fin_cases i <;> simp [cross]
    simp [total, resultant, Server.freeTop, Server.top, this]

/-- At 2 rad/s about an axis inclined in the body, during one second with a time step of 0.3 s. -/
example (ae1 : ℝ → Bool) :
    ∃ angle rho : ℝ, |angle - 2 * 0.3| ≤ |2 * 0.3| ^ 5 / 1584 ∧ 0 < rho ∧ |rho - 1| ≤ |2 * 0.3| ^ 5 / 3200 ∧
    ∃ s' obs, quicksolve (simSystem (oneBody Server.freeTop (fun _ a b => decide (a = b)) ae1) rk4Method.stepper) 10
        ⟨vec13 ![1, 2, 3] 0 ((2 : ℝ) • ![3 / 5, 0, 4 / 5]) ⟨4 / 5, 0, 3 / 5, 0⟩, noHistory, fun _ => none, [], 0⟩ 0 1 0.3 = some (.ok (s', obs)) ∧
      obs.map (fun o => (o.t, o.x)) = (List.range 5).map (fun i : Nat => (0 + (i : ℝ) * 0.3,
        vec13 ![1, 2, 3] 0 ((2 : ℝ) • ![3 / 5, 0, 4 / 5])
          (Quat.scale (if ae1 (rho ^ i) then rho ^ i else 1) (turned ⟨4 / 5, 0, 3 / 5, 0⟩ ![3 / 5, 0, 4 / 5] (i * angle))))) :=
  spin_rk4 _ (top_spins _ _ _) (by simp [unitAxis]; norm_num) _ (by norm_num [Unit4]) _ (fun _ a => by simp) ae1 rfl (fun n => by cases n <;> rfl) 0 1 0.3
    (by norm_num) (noHistory_notAfter _ _) 4 (by norm_num)
    (fun i hi => by
      have : (i : ℝ) ≤ 3 := by exact_mod_cast (by omega : i ≤ 3)
      linarith) 10 (by norm_num) (by rw [abs_of_pos] <;> norm_num)

end Xdyn.Sim

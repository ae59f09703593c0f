import Verif.Props.Converge

/-! Property C199: a simulation made by co-simulation requests converges to the exact motion, wherever it is cut. -/

namespace Xdyn.Sim

open Blocked Body Spec Solver Xdyn.Server

/-! ### Norm of the quaternion -/

noncomputable def norm4 (a b c d : ℝ) : ℝ := Real.sqrt (a ^ 2 + b ^ 2 + c ^ 2 + d ^ 2)

theorem norm4_nonneg (a b c d : ℝ) : 0 ≤ norm4 a b c d := Real.sqrt_nonneg _

theorem norm4_sq (a b c d : ℝ) : norm4 a b c d ^ 2 = a ^ 2 + b ^ 2 + c ^ 2 + d ^ 2 := Real.sq_sqrt (by positivity)

theorem norm4_component (a b c d : ℝ) : |a| ≤ norm4 a b c d ∧ |b| ≤ norm4 a b c d ∧ |c| ≤ norm4 a b c d ∧ |d| ≤ norm4 a b c d := by
  have h := norm4_sq a b c d
  have h0 := norm4_nonneg a b c d
  refine ⟨?_, ?_, ?_, ?_⟩ <;> refine abs_le_of_sq_le_sq ?_ h0 <;> rw [h] <;> nlinarith [sq_nonneg a, sq_nonneg b, sq_nonneg c, sq_nonneg d]

theorem norm4_le {e : ℝ} (a b c d a' b' c' d' : ℝ) (ha : |a - a'| ≤ e) (hb : |b - b'| ≤ e) (hc : |c - c'| ≤ e) (hd : |d - d'| ≤ e) :
    norm4 a b c d ≤ norm4 a' b' c' d' + 4 * e := by
  have he : 0 ≤ e := (abs_nonneg _).trans ha
  obtain ⟨ka, kb, kc, kd⟩ := norm4_component a' b' c' d'
  have h0 := norm4_nonneg a' b' c' d'
  have h := norm4_sq a' b' c' d'
  set n := norm4 a' b' c' d' with hn
  have one : ∀ z z' : ℝ, |z - z'| ≤ e → |z'| ≤ n → z ^ 2 ≤ z' ^ 2 + 2 * n * e + e ^ 2 := by
    intro z z' hz hz'
    have h1 : z' * (z - z') ≤ n * e := by
      have := mul_le_mul hz' hz (abs_nonneg _) h0
      rw [← abs_mul] at this
      exact (le_abs_self _).trans this
    have h2 : (z - z') ^ 2 ≤ e ^ 2 := by rw [← sq_abs (z - z')]; exact pow_le_pow_left₀ (abs_nonneg _) hz 2
    nlinarith
  have := one a a' ha ka
  have := one b b' hb kb
  have := one c c' hc kc
  have := one d d' hd kd
  rw [norm4, Real.sqrt_le_iff]
  refine ⟨by linarith, ?_⟩
  nlinarith [mul_nonneg h0 he, sq_nonneg e]

theorem norm4_near {e : ℝ} (a b c d a' b' c' d' : ℝ) (ha : |a - a'| ≤ e) (hb : |b - b'| ≤ e) (hc : |c - c'| ≤ e) (hd : |d - d'| ≤ e) :
    |norm4 a b c d - norm4 a' b' c' d'| ≤ 4 * e := by
  rw [abs_le]
  have h1 := norm4_le a b c d a' b' c' d' ha hb hc hd
  have h2 := norm4_le (e := e) a' b' c' d' a b c d (by rwa [abs_sub_comm]) (by rwa [abs_sub_comm]) (by rwa [abs_sub_comm]) (by rwa [abs_sub_comm])
  constructor <;> linarith

/-- Norm of the quaternion of a state. -/
noncomputable def attitudeNorm (x : List ℝ) : ℝ := norm4 (x.getD 9 0) (x.getD 10 0) (x.getD 11 0) (x.getD 12 0)

theorem attitudeNorm_near {e : ℝ} {x y : List ℝ} (h : Near e x y) : |attitudeNorm x - attitudeNorm y| ≤ 4 * e :=
  norm4_near _ _ _ _ _ _ _ _ (h 9) (h 10) (h 11) (h 12)

/-- A step of Euler's method changes the norm of the quaternion by at most a constant times the square of the time step. -/
theorem euler_norm (Minv : Mat6 ℝ) (F : Vec3 ℝ → Vec3 ℝ → Vec3 ℝ → Quat ℝ → Vec3 ℝ × Vec3 ℝ) (x : List ℝ) (hx : x.length = 13) {R : ℝ} (hR : Inside R x) (t dt : ℝ) :
    |attitudeNorm (along x dt (newton Minv F x t)) - attitudeNorm x| ≤ 2 * R ^ 3 * dt ^ 2 := by
  have hR0 : 0 ≤ R := (abs_nonneg _).trans (hR 0)
  match x, hx with
  | [x0, x1, x2, u, v, w, p, q, r, a, b, c, d], _ =>
    have hp : |p| ≤ R := hR 6
    have hq : |q| ≤ R := hR 7
    have hr : |r| ≤ R := hR 8
    have ha : |a| ≤ R := hR 9
    have hb : |b| ≤ R := hR 10
    have hc : |c| ≤ R := hR 11
    have hd : |d| ≤ R := hR 12
    have sq : ∀ z : ℝ, |z| ≤ R → z ^ 2 ≤ R ^ 2 := fun z hz => by rw [← sq_abs z]; exact pow_le_pow_left₀ (abs_nonneg _) hz 2
    show |norm4 (a + dt * ((-b * p - c * q - d * r) / 2)) (b + dt * ((a * p + c * r - d * q) / 2)) (c + dt * ((a * q - b * r + d * p) / 2)) (d + dt * ((a * r + b * q - c * p) / 2)) -
      norm4 a b c d| ≤ _
    set n := norm4 a b c d with hn
    set n' := norm4 (a + dt * ((-b * p - c * q - d * r) / 2)) (b + dt * ((a * p + c * r - d * q) / 2)) (c + dt * ((a * q - b * r + d * p) / 2)) (d + dt * ((a * r + b * q - c * p) / 2)) with hn'
    have h0 : 0 ≤ n := norm4_nonneg _ _ _ _
    have h0' : 0 ≤ n' := norm4_nonneg _ _ _ _
    have h1 : n ^ 2 = a ^ 2 + b ^ 2 + c ^ 2 + d ^ 2 := norm4_sq _ _ _ _
    have h2 : n' ^ 2 = n ^ 2 * (1 + dt ^ 2 * (p ^ 2 + q ^ 2 + r ^ 2) / 4) := by
      rw [hn', norm4_sq, h1]; ring
    set W := dt ^ 2 * (p ^ 2 + q ^ 2 + r ^ 2) / 4 with hW
    have hW0 : 0 ≤ W := by positivity
    have hW1 : W ≤ dt ^ 2 * R ^ 2 := by
      have := sq p hp; have := sq q hq; have := sq r hr
      have : p ^ 2 + q ^ 2 + r ^ 2 ≤ 4 * R ^ 2 := by nlinarith [sq_nonneg R]
      rw [hW]
      nlinarith [mul_le_mul_of_nonneg_left this (sq_nonneg dt)]
    have hn2R : n ≤ 2 * R := by
      refine abs_le_of_sq_le_sq' (a := n) (b := 2 * R) ?_ (by linarith) |>.2
      have := sq a ha; have := sq b hb; have := sq c hc; have := sq d hd
      rw [h1]; nlinarith
    have hlow : n ≤ n' := by
      refine abs_le_of_sq_le_sq' (a := n) (b := n') ?_ h0' |>.2
      rw [h2]; nlinarith [mul_nonneg (sq_nonneg n) hW0]
    have hup : n' ≤ n * (1 + W) := by
      refine abs_le_of_sq_le_sq' (a := n') (b := n * (1 + W)) ?_ (by positivity) |>.2
      rw [h2, mul_pow]
      refine mul_le_mul_of_nonneg_left ?_ (sq_nonneg n)
      nlinarith [sq_nonneg W]
    rw [abs_of_nonneg (by linarith)]
    have : n * W ≤ 2 * R * (dt ^ 2 * R ^ 2) := mul_le_mul hn2R hW1 hW0 (by linarith)
    nlinarith

/-- Normalising the quaternion moves the states by at most the error on its norm. -/
theorem unitQuaternion_moves (ae1 : ℝ → Bool) (x : List ℝ) (hx : x.length = 13) :
    (unitQuaternion ae1 x = x) ∨ ((unitQuaternion ae1 x).length = 13 ∧ Near |attitudeNorm x - 1| (unitQuaternion ae1 x) x ∧ (attitudeNorm x ≠ 0 → attitudeNorm (unitQuaternion ae1 x) = 1)) := by
  match x, hx with
  | [x0, x1, x2, u, v, w, p, q, r, a, b, c, d], _ =>
    unfold unitQuaternion
    dsimp only
    split
    · exact Or.inl rfl
    · right
      change ([x0, x1, x2, u, v, w, p, q, r, a / norm4 a b c d, b / norm4 a b c d, c / norm4 a b c d, d / norm4 a b c d] : List ℝ).length = 13 ∧
        Near |norm4 a b c d - 1| [x0, x1, x2, u, v, w, p, q, r, a / norm4 a b c d, b / norm4 a b c d, c / norm4 a b c d, d / norm4 a b c d] _ ∧
        (norm4 a b c d ≠ 0 → norm4 (a / norm4 a b c d) (b / norm4 a b c d) (c / norm4 a b c d) (d / norm4 a b c d) = 1)
      obtain ⟨ka, kb, kc, kd⟩ := norm4_component a b c d
      have h0 := norm4_nonneg a b c d
      have h1 := norm4_sq a b c d
      set n := norm4 a b c d with hn
      refine ⟨rfl, ?_, fun hne => ?_⟩
      · have comp : ∀ z : ℝ, |z| ≤ n → |z / n - z| ≤ |n - 1| := by
          intro z hz
          rcases h0.eq_or_lt with h | h
          · rw [← h] at hz ⊢
            have : z = 0 := abs_nonpos_iff.mp hz
            simp [this]
          · rw [show z / n - z = z / n * (1 - n) by field_simp, abs_mul, abs_div, abs_of_pos h, abs_sub_comm 1 n]
            have h3 : |z| / n ≤ 1 := (div_le_one h).mpr hz
            exact mul_le_of_le_one_left (abs_nonneg _) h3
        have hself : ∀ z : ℝ, |z - z| ≤ |n - 1| := fun z => by rw [sub_self, abs_zero]; exact abs_nonneg _
        intro i
        match i with
        | 0 => exact hself _
        | 1 => exact hself _
        | 2 => exact hself _
        | 3 => exact hself _
        | 4 => exact hself _
        | 5 => exact hself _
        | 6 => exact hself _
        | 7 => exact hself _
        | 8 => exact hself _
        | 9 => exact comp a ka
        | 10 => exact comp b kb
        | 11 => exact comp c kc
        | 12 => exact comp d kd
        | i + 13 => exact hself 0
      · rw [norm4, div_pow, div_pow, div_pow, div_pow, ← add_div, ← add_div, ← add_div, ← h1, div_self (pow_ne_zero 2 hne), Real.sqrt_one]

/-! ### Steps and normalisations in any order -/

/-- The states that can be reached from `x0` after `j` steps, with quaternions normalised between some of the steps. -/
inductive Reach (f : List ℝ → ℝ → List ℝ) (T : Tableau ℝ) (ae1 : ℝ → Bool) (x0 : List ℝ) (t0 dt : ℝ) : Nat → List ℝ → Prop
  | start : Reach f T ae1 x0 t0 dt 0 x0
  | step {j : Nat} {x : List ℝ} : Reach f T ae1 x0 t0 dt j x → Reach f T ae1 x0 t0 dt (j + 1) (RK.rkStep f T x (t0 + j * dt) dt)
  | unit {j : Nat} {x : List ℝ} : Reach f T ae1 x0 t0 dt j x → Reach f T ae1 x0 t0 dt j (unitQuaternion ae1 x)

theorem reach_converges (Minv : Mat6 ℝ) (F : Vec3 ℝ → Vec3 ℝ → Vec3 ℝ → Quat ℝ → Vec3 ℝ × Vec3 ℝ) (hf : Regular 13 (newton Minv F)) (T : Tableau ℝ) (hT : WellWeighted T) (ae1 : ℝ → Bool)
    {t0 D : ℝ} (hD : 0 ≤ D) (y : ℝ → List ℝ) (hy : IsMotion (newton Minv F) y) (hu : ∀ t, attitudeNorm (y t) = 1) :
    ∃ C δ, 0 ≤ C ∧ 0 < δ ∧ ∀ dt, 0 ≤ dt → dt ≤ δ → ∀ (j : Nat) (x : List ℝ), Reach (newton Minv F) T ae1 (y t0) t0 dt j x → (j : ℝ) * dt ≤ D →
      x.length = 13 ∧ Near (C * dt) x (y (t0 + j * dt)) := by
  set f := newton Minv F with hfdef
  have hyI : ∀ t ∈ Set.Icc t0 (t0 + D), (y t).length = 13 ∧ ∀ i, HasDerivAt (fun t => (y t).getD i 0) ((f (y t) t).getD i 0) t := fun t _ => hy t
  obtain ⟨r, hr, hin⟩ := motion_bounded y hyI
  obtain ⟨B, L, ht⟩ := hf.tame (R := r + 1) (by linarith)
  have hy' : ∀ t ∈ Set.Icc t0 (t0 + D), (y t).length = 13 ∧ ∀ i, HasDerivAt (fun t => (y t).getD i 0) ((f (limited (r + 1) (y t)) t).getD i 0) t := by
    intro t h
    rw [limited_eq (fun i => (hin t h i).trans (by linarith))]
    exact hyI t h
  have hB := ht.B_nonneg
  have hL := ht.L_nonneg
  have hS := size_nonneg T.weights
  have hA := (rowSize_spec T).1
  set K1 := size T.weights * L * rowSize T * B with hK1
  have hK10 : 0 ≤ K1 := by positivity
  -- error of a step, and change of the norm of the quaternion
  set K := K1 + L * B + (4 * K1 + 2 * (r + 1) ^ 3) with hK
  have hK0 : 0 ≤ K := by positivity
  set C := D * K * Real.exp (L * D) with hCdef
  have hC : 0 ≤ C := by positivity
  set δ := min (1 / 2 / (C + 1)) (1 / 2 / (rowSize T * B + 1)) with hδ
  have hδ0 : 0 < δ := lt_min (by positivity) (by positivity)
  refine ⟨C, δ, hC, hδ0, fun dt hdt hd => ?_⟩
  have hd1 : C * dt ≤ 1 / 2 := by
    have : dt ≤ 1 / 2 / (C + 1) := hd.trans (min_le_left _ _)
    rw [le_div_iff₀ (by positivity)] at this
    nlinarith
  have hd2 : dt * rowSize T * B ≤ 1 / 2 := by
    have : dt ≤ 1 / 2 / (rowSize T * B + 1) := hd.trans (min_le_right _ _)
    rw [le_div_iff₀ (by positivity)] at this
    nlinarith
  have bound : ∀ j : Nat, (j : ℝ) * dt ≤ D → (j : ℝ) * (K * dt ^ 2) * (1 + L * dt) ^ j ≤ C * dt := by
    intro j hj
    have he : (1 + L * dt) ^ j ≤ Real.exp (L * D) := by
      refine (pow_le_pow_left₀ (by positivity) (show 1 + L * dt ≤ Real.exp (L * dt) by linarith [Real.add_one_le_exp (L * dt)]) j).trans ?_
      rw [← Real.exp_nat_mul]
      refine Real.exp_le_exp.mpr ?_
      nlinarith [mul_le_mul_of_nonneg_left hj hL]
    have h3 : (j : ℝ) * dt * (K * dt) ≤ D * (K * dt) := mul_le_mul_of_nonneg_right hj (by positivity)
    have h4 := mul_le_mul h3 he (by positivity) (by positivity)
    rw [show (j : ℝ) * (K * dt ^ 2) * (1 + L * dt) ^ j = (j : ℝ) * dt * (K * dt) * (1 + L * dt) ^ j by ring]
    refine h4.trans (le_of_eq ?_)
    rw [hCdef]; ring
  -- the invariant
  have inv : ∀ (j : Nat) (x : List ℝ), Reach f T ae1 (y t0) t0 dt j x → (j : ℝ) * dt ≤ D →
      x.length = 13 ∧ ∃ E μ, Near E x (y (t0 + j * dt)) ∧ |attitudeNorm x - 1| ≤ μ ∧ E + μ ≤ (j : ℝ) * (K * dt ^ 2) * (1 + L * dt) ^ j := by
    intro j x hreach
    induction hreach with
    | start =>
      intro _
      refine ⟨(hy t0).1, 0, 0, ?_, ?_, by simp⟩
      · simpa using near_refl (y t0)
      · rw [hu, sub_self, abs_zero]
    | @unit j x _ ih =>
      intro hj
      obtain ⟨hlen, E, μ, h1, h2, h3⟩ := ih hj
      rcases unitQuaternion_moves ae1 x hlen with h | ⟨h4, h5, h6⟩
      · rw [h]; exact ⟨hlen, E, μ, h1, h2, h3⟩
      · have hμ : 0 ≤ μ := (abs_nonneg _).trans h2
        refine ⟨h4, E + μ, 0, ?_, ?_, by linarith⟩
        · have := (h5.mono h2).triangle h1
          rwa [add_comm] at this
        · have hb := (h3.trans (bound j hj)).trans hd1
          have hE := h1.nonneg
          have hne : attitudeNorm x ≠ 0 := by
            intro h0
            rw [h0, zero_sub, abs_neg, abs_one] at h2
            linarith
          rw [h6 hne, sub_self, abs_zero]
    | @step j x _ ih =>
      intro hj
      push_cast at hj
      have hjdt : 0 ≤ (j : ℝ) * dt := mul_nonneg (Nat.cast_nonneg j) hdt
      have hj' : (j : ℝ) * dt ≤ D := by linarith
      obtain ⟨hlen, E, μ, h1, h2, h3⟩ := ih hj'
      have hμ : 0 ≤ μ := (abs_nonneg _).trans h2
      have hE := h1.nonneg
      have hb := (h3.trans (bound j hj')).trans hd1
      have hI : Inside (r + 1 / 2) x := fun i => (h1.inside (hin (t0 + j * dt) ⟨by linarith, by linarith⟩) i).trans (by linarith)
      have hI1 : Inside (r + 1) x := fun i => (hI i).trans (by linarith)
      have hstep : RK.rkStep (fun x t => f (limited (r + 1) x) t) T x (t0 + j * dt) dt = RK.rkStep f T x (t0 + j * dt) dt := by
        rw [RK.rkStep, RK.rkStep, stages_limited ht hdt _ hlen hI (A := rowSize T) (by linarith) (t0 + j * dt) T.stages (rowSize_spec T).2 [] (by simp)]
      obtain ⟨h4, h5⟩ := step_near_euler ht T hT hdt x hlen (t0 + j * dt) 0
      rw [hstep] at h4 h5
      have hyj := hy' (t0 + j * dt) ⟨by linarith, by linarith⟩
      have h6 := motion_near_euler ht y hy' (t := t0 + j * dt) (by linarith) hdt (by linarith) 0
      have h7 := (h5.triangle (euler_near ht hdt hlen hyj.1 h1 0 0)).triangle h6.symm
      have h8 := attitudeNorm_near h5
      rw [limited_eq hI1] at h8
      have h9 := euler_norm Minv F x hlen hI1 0 dt
      refine ⟨h4, K1 * dt ^ 2 + (1 + L * dt) * E + L * B * dt ^ 2, μ + (4 * K1 + 2 * (r + 1) ^ 3) * dt ^ 2, ?_, ?_, ?_⟩
      · rw [show t0 + ((j + 1 : Nat) : ℝ) * dt = t0 + (j : ℝ) * dt + dt by push_cast; ring]
        exact h7
      · have e1 := abs_sub_le (attitudeNorm (RK.rkStep f T x (t0 + j * dt) dt)) (attitudeNorm (along x dt (f x 0))) 1
        have e2 := abs_sub_le (attitudeNorm (along x dt (f x 0))) (attitudeNorm x) 1
        rw [← hfdef] at h9
        linarith
      · have hone : 1 ≤ (1 + L * dt) ^ (j + 1) := one_le_pow₀ (by nlinarith [mul_nonneg hL hdt])
        have hKd : 0 ≤ K * dt ^ 2 := by positivity
        have hLd : 0 ≤ L * dt := mul_nonneg hL hdt
        have g1 : K1 * dt ^ 2 + (1 + L * dt) * E + L * B * dt ^ 2 + (μ + (4 * K1 + 2 * (r + 1) ^ 3) * dt ^ 2) ≤ (1 + L * dt) * (E + μ) + K * dt ^ 2 := by
          rw [hK]
          nlinarith [mul_nonneg hLd hμ]
        refine g1.trans ?_
        have g2 := mul_le_mul_of_nonneg_left h3 (show 0 ≤ 1 + L * dt by linarith)
        have g3 := mul_le_mul_of_nonneg_left hone hKd
        have g4 : ((j + 1 : Nat) : ℝ) * (K * dt ^ 2) * (1 + L * dt) ^ (j + 1) = (1 + L * dt) * ((j : ℝ) * (K * dt ^ 2) * (1 + L * dt) ^ j) + K * dt ^ 2 * (1 + L * dt) ^ (j + 1) := by push_cast; ring
        rw [g4]
        linarith
  intro j x hx hj
  obtain ⟨h1, E, μ, h2, h3, h4⟩ := inv j x hx hj
  refine ⟨h1, h2.mono ?_⟩
  have hμ : 0 ≤ μ := (abs_nonneg _).trans h3
  linarith [bound j hj]

/-! ### Requests -/

theorem reach_run (f : List ℝ → ℝ → List ℝ) (T : Tableau ℝ) (ae1 : ℝ → Bool) (x0 : List ℝ) (t0 dt : ℝ) {j : Nat} {x : List ℝ} (h : Reach f T ae1 x0 t0 dt j x) :
    ∀ i : Nat, Reach f T ae1 x0 t0 dt (j + i) (RK.rkRun f (fun x _ => x) T x (t0 + j * dt) dt i)
  | 0 => h
  | i + 1 => by
    have := (reach_run f T ae1 x0 t0 dt h i).step
    rw [show t0 + ((j + i : Nat) : ℝ) * dt = t0 + j * dt + i * dt by push_cast; ring] at this
    exact this

/-- All that is answered can be reached. -/
theorem pieces_reach (f : List ℝ → ℝ → List ℝ) (T : Tableau ℝ) (ae1 : ℝ → Bool) (x0 : List ℝ) (t0 dt : ℝ) : ∀ (steps : List Nat) {j : Nat} {x : List ℝ} (_ : Reach f T ae1 x0 t0 dt j x),
    ∀ a ∈ pieces f (fun x _ => x) (fun x _ => unitQuaternion ae1 x) T dt x (t0 + j * dt) steps, ∀ o ∈ a,
      ∃ i : Nat, i ≤ j + steps.sum ∧ o.1 = t0 + i * dt ∧ Reach f T ae1 x0 t0 dt i o.2
  | [], _, _, _, a, ha, _, _ => by simp [pieces] at ha
  | N :: steps, j, x, h, a, ha, o, ho => by
    rw [pieces, List.mem_cons] at ha
    rcases ha with rfl | ha
    · obtain ⟨i, hi, rfl⟩ := List.mem_map.mp ho
      rw [List.mem_range] at hi
      exact ⟨j + i, by simp only [List.sum_cons]; omega, by push_cast; ring, (reach_run f T ae1 x0 t0 dt h i).unit⟩
    · have hN := (reach_run f T ae1 x0 t0 dt h N).unit
      rw [show t0 + (j : ℝ) * dt + N * dt = t0 + ((j + N : Nat) : ℝ) * dt by push_cast; ring] at ha
      obtain ⟨i, h1, h2⟩ := pieces_reach f T ae1 x0 t0 dt steps hN a ha o ho
      exact ⟨i, by simp only [List.sum_cons]; omega, h2⟩

theorem pieces_dates (f g out : List ℝ → ℝ → List ℝ) (T : Tableau ℝ) (dt : ℝ) : ∀ (steps : List Nat) (x x' : List ℝ) (t : ℝ),
    (pieces f (fun x _ => x) out T dt x t steps).map (List.map Prod.fst) = (pieces g (fun x _ => x) (fun x _ => x) T dt x' t steps).map (List.map Prod.fst)
  | [], _, _, _ => rfl
  | N :: steps, x, x', t => by
    rw [pieces, pieces, List.map_cons, List.map_cons, pieces_dates f g out T dt steps _ (RK.rkRun g (fun x _ => x) T x' t dt N)]
    simp

theorem cuts_map {α β : Type} (h : α → β) : ∀ (steps : List Nat) (l : List α), (cuts l steps).map (List.map h) = cuts (l.map h) steps
  | [], _ => rfl
  | N :: steps, l => by rw [cuts, cuts, List.map_cons, cuts_map h steps, List.map_take, List.map_drop]

/-- **C199** One body with the usual force models and no controller, simulated by a client that makes any number of co-simulation requests, each one starting from the last state that
the client received: all the requests are answered, the dates of the answers are those of one simulation cut into pieces, and all the states in the answers are at most `C dt`
away from the exact ones, where `C` depends neither on the time step nor on where the simulation is cut. -/
theorem requests_converge (e : Multi.Entry ℝ) (he : Alone e) {Ms : Mat6 ℝ} (hcor : e.body.coriolis = inertialForces Ms) (ae : Nat → ℝ → ℝ → Bool) (hae : ∀ n a, ae n a a = true) (ae1 : ℝ → Bool)
    (l : List Push) (hl : e.forces = l.map (Push.model e.body)) (hb : ∀ f ∈ l, ¬ f.InBody) (hreg : ∀ f ∈ l, f.Regular) (hcs : e.controlled = [])
    (T : Tableau ℝ) (hT : Forward T) (hw : WellWeighted T) (y : ℝ → List ℝ) (hy : IsMotion (newton e.body.Minv (fun _ => resultant e.body l)) y)
    (tstart D : ℝ) (hD : 0 ≤ D) (hu : Unit4 (attitudeOf (y tstart))) :
    ∃ C δ, 0 < δ ∧ ∀ conf : StepConf ℝ, conf.stepper = T.stepper → 0 < conf.dt → conf.dt ≤ δ → (∀ a b c d, ∃ e, conf.angles a b c d = .ok e) →
      ∀ (fuel : Nat) (requests : List (Nat × ℝ)) (steps : List Nat),
      List.Forall₂ (fun (r : Nat × ℝ) (N : Nat) => 0 < r.2 ∧ r.2 ≤ N * conf.dt ∧ (∀ i : Nat, i < N → i * conf.dt < r.2) ∧ N ≤ fuel) requests steps →
      (steps.sum : ℝ) * conf.dt ≤ D →
      ∀ (s : Sim ℝ (Vec3 ℝ × Vec3 ℝ)) (cmd : Commands ℝ) (past : List (YamlState ℝ)) (last : YamlState ℝ), (∀ n, cmd n = none → s.commands n = none) →
      List.Pairwise (fun a b => a.t ≤ b.t) (past ++ [last]) → last.t = tstart → stateAt last = y tstart →
      ∃ answers, chain (oneBody e ae ae1) conf 0 fuel cmd s (past ++ [last]) requests = some (.ok answers) ∧
        answers.map (List.map (fun o => o.1.t)) = cuts ((List.range (steps.sum + 1)).map (fun i : Nat => tstart + i * conf.dt)) steps ∧
        ∀ a ∈ answers, ∀ o ∈ a, Near (C * conf.dt) (stateAt o.1) (y o.1.t) := by
  have hunit : ∀ t, attitudeNorm (y t) = 1 := fun t => by
    have := motion_unit (motion_moved hy tstart) (by simpa using hu) (t - tstart)
    simp only [sub_add_cancel] at this
    unfold Unit4 at this
    change Real.sqrt ((attitudeOf (y t)).w ^ 2 + (attitudeOf (y t)).x ^ 2 + (attitudeOf (y t)).y ^ 2 + (attitudeOf (y t)).z ^ 2) = 1
    rw [this, Real.sqrt_one]
  obtain ⟨C, δ, hC, hδ, H⟩ := reach_converges e.body.Minv (fun _ => resultant e.body l) (resultant_regular e.body hcor l hreg) T hw ae1 (t0 := tstart) hD y hy hunit
  refine ⟨C, δ, hδ, ?_⟩
  intro conf hconf hdt hd hang fuel requests steps hsteps hsum s cmd past last hc hp hlast hstate
  have htot : total e.body l [] = fun _ => resultant e.body l := by
    funext P u w q
    simp [total]
  obtain ⟨answers, h1, h2⟩ := body_requests e he l hl hb [] (by simpa using hcs) cmd (by simp) ae hae ae1 T hT conf hconf hdt hang fuel requests steps hsteps s past last hc hp
  rw [htot, hstate, hlast] at h2
  refine ⟨answers, h1, ?_, fun a ha o ho => ?_⟩
  · have h3 := congrArg (List.map (List.map Prod.fst)) h2
    rw [List.map_map, pieces_dates _ (newton e.body.Minv (fun _ => resultant e.body l)) _ _ _ _ _ (y tstart), pieces_cuts _ T conf.dt steps _ _ steps.sum le_rfl, cuts_map] at h3
    rw [show (List.map fun o : YamlState ℝ × Unit => o.1.t) = List.map Prod.fst ∘ List.map (fun y => (y.1.t, stateAt y.1)) by funext l; simp, h3]
    rw [List.map_map]
    rfl
  · have h3 : (a.map fun y => (y.1.t, stateAt y.1)) ∈ pieces (newton e.body.Minv (fun _ => resultant e.body l)) (fun x _ => x) (fun x _ => unitQuaternion ae1 x) T conf.dt (y tstart)
        (tstart + ((0 : Nat) : ℝ) * conf.dt) steps := by
      rw [Nat.cast_zero, zero_mul, add_zero, ← h2]
      exact List.mem_map_of_mem ha
    obtain ⟨i, h4, h5, h6⟩ := pieces_reach _ T ae1 (y tstart) tstart conf.dt steps .start _ h3 (o.1.t, stateAt o.1) (List.mem_map_of_mem (f := fun y : YamlState ℝ × Unit => (y.1.t, stateAt y.1)) ho)
    have h7 : (i : ℝ) * conf.dt ≤ D := by
      have : (i : ℝ) ≤ steps.sum := by exact_mod_cast (by omega : i ≤ steps.sum)
      exact (mul_le_mul_of_nonneg_right this hdt.le).trans hsum
    have h8 := (H conf.dt hdt.le hd i _ h6 h7).2
    dsimp only at h5 h8
    rwa [← h5] at h8

/-- The ball that is thrown and turns, simulated during ten seconds with `rk4` by a client that makes a request for each step: the hypotheses of C199 are met. -/
example (conf0 : StepConf ℝ) (hang : ∀ a b c d, ∃ e, conf0.angles a b c d = .ok e) (last : YamlState ℝ) (hlast : last.t = 0) (hstate : stateAt last = thrown 0)
    (s : Sim ℝ (Vec3 ℝ × Vec3 ℝ)) : ∃ C δ, 0 < δ ∧ ∀ dt, 0 < dt → dt ≤ δ → ∀ N : Nat, (N : ℝ) * dt ≤ 10 →
    ∃ answers, chain (oneBody thrownBall (fun _ a b => decide (a = b)) (fun _ => false)) { conf0 with dt := dt, stepper := rk4Method.stepper } 0 1 s.commands s [last]
        (List.replicate N (0, dt)) = some (.ok answers) ∧
      ∀ a ∈ answers, ∀ o ∈ a, Near (C * dt) (stateAt o.1) (thrown o.1.t) := by
  obtain ⟨C, δ, hδ, H⟩ := requests_converge thrownBall ⟨rfl, by decide, fun _ => rfl⟩ (Ms := 1) top_inertial (fun _ a b => decide (a = b)) (by simp) (fun _ => false)
    [.gravity 1 10] rfl (by simp [Push.InBody]) (by simp [Push.Regular]) rfl rk4Method rk4_forward rk4_weighted thrown thrown_is_motion 0 10 (by norm_num)
    (by simp [thrown, Unit4, attitudeOf])
  refine ⟨C, δ, hδ, fun dt hdt hd N hN => ?_⟩
  have hall : List.Forall₂ (fun (r : Nat × ℝ) (N : Nat) => 0 < r.2 ∧ r.2 ≤ N * dt ∧ (∀ i : Nat, i < N → i * dt < r.2) ∧ N ≤ 1) (List.replicate N (0, dt)) (List.replicate N 1) := by
    clear hN
    induction N with
    | zero => exact .nil
    | succ N ih =>
      rw [List.replicate_succ, List.replicate_succ]
      refine .cons ⟨hdt, by simp, fun i hi => ?_, le_rfl⟩ ih
      have : i = 0 := by omega
      subst this
      simpa using hdt
  obtain ⟨answers, h1, -, h2⟩ := H { conf0 with dt := dt, stepper := rk4Method.stepper } rfl hdt hd hang 1 (List.replicate N (0, dt)) (List.replicate N 1) hall (by simpa using hN)
    s s.commands [] last (fun _ h => h) (by simp) hlast hstate
  exact ⟨answers, h1, h2⟩

end Xdyn.Sim

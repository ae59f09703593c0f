import Verif.Props.ConvergeRequests
import Mathlib.Analysis.Real.Pi.Bounds

/-! Property C200: simulations with controllers converge to the exact motion. -/

namespace Xdyn.Sim

open Blocked Body Spec Solver Xdyn.Server

theorem stages_tube {n : Nat} {f g : List ℝ → ℝ → List ℝ} {B L η : ℝ} (hg : Tame n g B L) {dt A e : ℝ} (hdt : 0 ≤ dt) (x z : List ℝ) (hx : x.length = n)
    (hz : Near e x z) (hη : e + dt * A * B ≤ η) (hfg : ∀ x, x.length = n → Near η x z → ∀ s, g x s = f x s) (t : ℝ) :
    ∀ (rows : List (ℝ × List ℝ)) (_ : ∀ r ∈ rows, size r.2 ≤ A) (ks : List (List ℝ)) (_ : ∀ k ∈ ks, k.length = n ∧ Inside B k),
      RK.rkStages g x t dt rows ks = RK.rkStages f x t dt rows ks
  | [], _, ks, hk => rfl
  | (c, a) :: rows, hrow, ks, hk => by
    have hm := move_spec dt a ks x hx (fun k h => (hk k h).1)
    have hnear := ((move_near hdt hg.B_nonneg a (hrow (c, a) (by simp)) ks x hx hk).triangle hz).mono (show dt * A * B + e ≤ η by linarith)
    rw [RK.rkStages, RK.rkStages]
    have ih := stages_tube hg hdt x z hx hz hη hfg t rows (fun r h => hrow r (by simp [h])) (ks ++ [g (RK.move dt x a ks) (t + c * dt)]) (by
      intro k hk'
      rcases List.mem_append.mp hk' with h | h
      · exact hk k h
      · rw [List.mem_singleton.mp h]
        exact ⟨hg.length _ _ hm.1, hg.bounded _ _ hm.1⟩)
    rw [ih, hfg _ hm.1 hnear]

/-- Steps and normalisations in any order, for equations that are those of a tame system in the neighbourhood of the exact motion. -/
theorem reach_tube (Minv : Mat6 ℝ) (F : Vec3 ℝ → Vec3 ℝ → Vec3 ℝ → Quat ℝ → Vec3 ℝ × Vec3 ℝ) {g : List ℝ → ℝ → List ℝ} {B L η : ℝ} (ht : Tame 13 g B L) (hη : 0 < η) (hη1 : η ≤ 1)
    (T : Tableau ℝ) (hT : WellWeighted T) (ae1 : ℝ → Bool)
    {t0 D : ℝ} (hD : 0 ≤ D) (y : ℝ → List ℝ) (hy : IsMotion (newton Minv F) y) (hu : ∀ t, attitudeNorm (y t) = 1)
    (hfg : ∀ t ∈ Set.Icc t0 (t0 + D), ∀ x, x.length = 13 → Near η x (y t) → ∀ s, g x s = newton Minv F x s) :
    ∃ C δ, 0 ≤ C ∧ 0 < δ ∧ ∀ dt, 0 ≤ dt → dt ≤ δ → ∀ (j : Nat) (x : List ℝ), Reach (newton Minv F) T ae1 (y t0) t0 dt j x → (j : ℝ) * dt ≤ D →
      x.length = 13 ∧ Near (C * dt) x (y (t0 + j * dt)) := by
  set f := newton Minv F with hfdef
  have hyI : ∀ t ∈ Set.Icc t0 (t0 + D), (y t).length = 13 ∧ ∀ i, HasDerivAt (fun t => (y t).getD i 0) ((f (y t) t).getD i 0) t := fun t _ => hy t
  obtain ⟨r, hr, hin⟩ := motion_bounded y hyI
  have hy' : ∀ t ∈ Set.Icc t0 (t0 + D), (y t).length = 13 ∧ ∀ i, HasDerivAt (fun t => (y t).getD i 0) ((g (y t) t).getD i 0) t := by
    intro t h
    rw [hfg t h (y t) (hy t).1 ((near_refl (y t)).mono hη.le)]
    exact hyI t h
  have hB := ht.B_nonneg
  have hL := ht.L_nonneg
  have hS := size_nonneg T.weights
  have hA := (rowSize_spec T).1
  set K1 := size T.weights * L * rowSize T * B with hK1
  have hK10 : 0 ≤ K1 := by positivity
  -- error of a step, and change of the norm of the quaternion
  set K := K1 + L * B + (4 * K1 + 2 * (r + 1) ^ 3) with hK
  have hK0 : 0 ≤ K := by positivity
  set C := D * K * Real.exp (L * D) with hCdef
  have hC : 0 ≤ C := by positivity
  set δ := min (η / 2 / (C + 1)) (η / 2 / (rowSize T * B + 1)) with hδ
  have hδ0 : 0 < δ := lt_min (by positivity) (by positivity)
  refine ⟨C, δ, hC, hδ0, fun dt hdt hd => ?_⟩
  have hd1 : C * dt ≤ η / 2 := by
    have : dt ≤ η / 2 / (C + 1) := hd.trans (min_le_left _ _)
    rw [le_div_iff₀ (by positivity)] at this
    nlinarith
  have hd2 : dt * rowSize T * B ≤ η / 2 := by
    have : dt ≤ η / 2 / (rowSize T * B + 1) := hd.trans (min_le_right _ _)
    rw [le_div_iff₀ (by positivity)] at this
    nlinarith
  have bound : ∀ j : Nat, (j : ℝ) * dt ≤ D → (j : ℝ) * (K * dt ^ 2) * (1 + L * dt) ^ j ≤ C * dt := by
    intro j hj
    have he : (1 + L * dt) ^ j ≤ Real.exp (L * D) := by
      refine (pow_le_pow_left₀ (by positivity) (show 1 + L * dt ≤ Real.exp (L * dt) by linarith [Real.add_one_le_exp (L * dt)]) j).trans ?_
      rw [← Real.exp_nat_mul]
      refine Real.exp_le_exp.mpr ?_
      nlinarith [mul_le_mul_of_nonneg_left hj hL]
    have h3 : (j : ℝ) * dt * (K * dt) ≤ D * (K * dt) := mul_le_mul_of_nonneg_right hj (by positivity)
    have h4 := mul_le_mul h3 he (by positivity) (by positivity)
    rw [show (j : ℝ) * (K * dt ^ 2) * (1 + L * dt) ^ j = (j : ℝ) * dt * (K * dt) * (1 + L * dt) ^ j by ring]
    refine h4.trans (le_of_eq ?_)
    rw [hCdef]; ring
  -- the invariant
  have inv : ∀ (j : Nat) (x : List ℝ), Reach f T ae1 (y t0) t0 dt j x → (j : ℝ) * dt ≤ D →
      x.length = 13 ∧ ∃ E μ, Near E x (y (t0 + j * dt)) ∧ |attitudeNorm x - 1| ≤ μ ∧ E + μ ≤ (j : ℝ) * (K * dt ^ 2) * (1 + L * dt) ^ j := by
    intro j x hreach
    induction hreach with
    | start =>
      intro _
      refine ⟨(hy t0).1, 0, 0, ?_, ?_, by simp⟩
      · simpa using near_refl (y t0)
      · rw [hu, sub_self, abs_zero]
    | @unit j x _ ih =>
      intro hj
      obtain ⟨hlen, E, μ, h1, h2, h3⟩ := ih hj
      rcases unitQuaternion_moves ae1 x hlen with h | ⟨h4, h5, h6⟩
      · rw [h]; exact ⟨hlen, E, μ, h1, h2, h3⟩
      · have hμ : 0 ≤ μ := (abs_nonneg _).trans h2
        refine ⟨h4, E + μ, 0, ?_, ?_, by linarith⟩
        · have := (h5.mono h2).triangle h1
          rwa [add_comm] at this
        · have hb := (h3.trans (bound j hj)).trans hd1
          have hE := h1.nonneg
          have hne : attitudeNorm x ≠ 0 := by
            intro h0
            rw [h0, zero_sub, abs_neg, abs_one] at h2
            linarith
          rw [h6 hne, sub_self, abs_zero]
    | @step j x _ ih =>
      intro hj
      push_cast at hj
      have hjdt : 0 ≤ (j : ℝ) * dt := mul_nonneg (Nat.cast_nonneg j) hdt
      have hj' : (j : ℝ) * dt ≤ D := by linarith
      obtain ⟨hlen, E, μ, h1, h2, h3⟩ := ih hj'
      have hμ : 0 ≤ μ := (abs_nonneg _).trans h2
      have hE := h1.nonneg
      have hb := (h3.trans (bound j hj')).trans hd1
      have hmem : t0 + (j : ℝ) * dt ∈ Set.Icc t0 (t0 + D) := ⟨by linarith, by linarith⟩
      have hI1 : Inside (r + 1) x := fun i => (h1.inside (hin (t0 + j * dt) hmem) i).trans (by linarith)
      have hstep : RK.rkStep g T x (t0 + j * dt) dt = RK.rkStep f T x (t0 + j * dt) dt := by
        rw [RK.rkStep, RK.rkStep, stages_tube ht hdt x (y (t0 + j * dt)) hlen h1 (A := rowSize T) (by linarith) (hfg _ hmem) (t0 + j * dt) T.stages (rowSize_spec T).2 [] (by simp)]
      obtain ⟨h4, h5⟩ := step_near_euler ht T hT hdt x hlen (t0 + j * dt) 0
      rw [hstep] at h4 h5
      have hyj := hy' (t0 + j * dt) ⟨by linarith, by linarith⟩
      have h6 := motion_near_euler ht y hy' (t := t0 + j * dt) (by linarith) hdt (by linarith) 0
      have h7 := (h5.triangle (euler_near ht hdt hlen hyj.1 h1 0 0)).triangle h6.symm
      have h8 := attitudeNorm_near h5
      rw [hfg _ hmem x hlen (h1.mono (by linarith))] at h8
      have h9 := euler_norm Minv F x hlen hI1 0 dt
      refine ⟨h4, K1 * dt ^ 2 + (1 + L * dt) * E + L * B * dt ^ 2, μ + (4 * K1 + 2 * (r + 1) ^ 3) * dt ^ 2, ?_, ?_, ?_⟩
      · rw [show t0 + ((j + 1 : Nat) : ℝ) * dt = t0 + (j : ℝ) * dt + dt by push_cast; ring]
        exact h7
      · have e1 := abs_sub_le (attitudeNorm (RK.rkStep f T x (t0 + j * dt) dt)) (attitudeNorm (along x dt (f x 0))) 1
        have e2 := abs_sub_le (attitudeNorm (along x dt (f x 0))) (attitudeNorm x) 1
        rw [← hfdef] at h9
        linarith
      · have hone : 1 ≤ (1 + L * dt) ^ (j + 1) := one_le_pow₀ (by nlinarith [mul_nonneg hL hdt])
        have hKd : 0 ≤ K * dt ^ 2 := by positivity
        have hLd : 0 ≤ L * dt := mul_nonneg hL hdt
        have g1 : K1 * dt ^ 2 + (1 + L * dt) * E + L * B * dt ^ 2 + (μ + (4 * K1 + 2 * (r + 1) ^ 3) * dt ^ 2) ≤ (1 + L * dt) * (E + μ) + K * dt ^ 2 := by
          rw [hK]
          nlinarith [mul_nonneg hLd hμ]
        refine g1.trans ?_
        have g2 := mul_le_mul_of_nonneg_left h3 (show 0 ≤ 1 + L * dt by linarith)
        have g3 := mul_le_mul_of_nonneg_left hone hKd
        have g4 : ((j + 1 : Nat) : ℝ) * (K * dt ^ 2) * (1 + L * dt) ^ (j + 1) = (1 + L * dt) * ((j : ℝ) * (K * dt ^ 2) * (1 + L * dt) ^ j) + K * dt ^ 2 * (1 + L * dt) ^ (j + 1) := by push_cast; ring
        rw [g4]
        linarith
  intro j x hx hj
  obtain ⟨h1, E, μ, h2, h3, h4⟩ := inv j x hx hj
  refine ⟨h1, h2.mono ?_⟩
  have hμ : 0 ≤ μ := (abs_nonneg _).trans h3
  linarith [bound j hj]

/-! ### Controllers -/

/-- The heading, made Lipschitz where `R 0 0` is less than `c`. -/
noncomputable def smoothHeading (c : ℝ) (R : Mat3 ℝ) : ℝ := Real.arctan (R 1 0 / max c (R 0 0))

noncomputable def Control.smoothed (c : ℝ) : Control → Control
  | .stationKeeping I _ k x y psi => .stationKeeping I (smoothHeading c) k x y psi
  | .heading I _ n ksi Tp psi => .heading I (smoothHeading c) n ksi Tp psi

theorem arctan_lipschitz : LipschitzOnIntervals Real.arctan := fun _ => ⟨1, fun a b _ _ => by
  rw [one_mul]
  have := (convex_univ (𝕜 := ℝ) (E := ℝ)).norm_image_sub_le_of_norm_deriv_le (f := Real.arctan) (C := 1) (x := b) (y := a)
    (fun x _ => Real.differentiableAt_arctan x) (fun x _ => by
      rw [Real.deriv_arctan, Real.norm_eq_abs, abs_of_nonneg (by positivity), div_le_one (by positivity)]
      nlinarith [sq_nonneg x]) (Set.mem_univ _) (Set.mem_univ _)
  simpa [Real.norm_eq_abs] using this⟩

theorem inverse_lipschitz {c : ℝ} (hc : 0 < c) : LipschitzOnIntervals (fun a => (max c a)⁻¹) := fun _ => ⟨1 / c ^ 2, fun a b _ _ => by
  have h1 : c ≤ max c a := le_max_left _ _
  have h2 : c ≤ max c b := le_max_left _ _
  have p1 : 0 < max c a := lt_of_lt_of_le hc h1
  have p2 : 0 < max c b := lt_of_lt_of_le hc h2
  have h3 : |max c b - max c a| ≤ |a - b| := by
    refine (abs_max_sub_max_le_max _ _ _ _).trans ?_
    rw [sub_self, abs_zero, abs_sub_comm]
    exact max_le (abs_nonneg _) le_rfl
  rw [show (max c a)⁻¹ - (max c b)⁻¹ = (max c b - max c a) / (max c a * max c b) by field_simp, abs_div, abs_of_pos (mul_pos p1 p2), div_le_iff₀ (mul_pos p1 p2)]
  have h4 : c ^ 2 ≤ max c a * max c b := by nlinarith
  have h5 : 1 ≤ 1 / c ^ 2 * (max c a * max c b) := by
    rw [one_div, ← div_eq_inv_mul, le_div_iff₀ (by positivity)]
    linarith
  nlinarith [abs_nonneg (a - b), mul_le_mul_of_nonneg_left h5 (abs_nonneg (a - b))]⟩

theorem heading_lip {c : ℝ} (hc : 0 < c) : LipBox (fun x => smoothHeading c (attitudeOf x).matrix) := by
  have h : LipBox (fun x => (attitudeOf x).matrix 1 0 * (max c ((attitudeOf x).matrix 0 0))⁻¹) := (matrix_lip 1 0).mul ((matrix_lip 0 0).comp (inverse_lipschitz hc))
  simpa only [smoothHeading, div_eq_mul_inv] using h.comp arctan_lipschitz

theorem position_lip : LipVec positionOf := LipVec.three (LipBox.coordinate 0) (LipBox.coordinate 1) (LipBox.coordinate 2)

theorem keeper_lip (I : Fin 6 → Fin 6 → ℝ) (k : StationKeeper) (xCo yCo : ℝ) : LipVec (fun s => keeperForce I k xCo yCo (positionOf s) (velocityOf s)) := by
  have p0 := position_lip 0
  have p1 := position_lip 1
  have u0 := velocity_lip 0
  have u1 := velocity_lip 1
  refine LipVec.three ?_ ?_ (LipBox.const 0)
  · exact (LipBox.const _).mul (((LipBox.const _).mul ((LipBox.const _).sub p0)).sub ((LipBox.const _).mul u0))
  · exact (LipBox.const _).mul (((LipBox.const _).mul ((LipBox.const _).sub p1)).sub ((LipBox.const _).mul u1))

theorem control_lip (G : Vec3 ℝ) {c : ℝ} (hc : 0 < c) (k : Control) :
    (LipVec fun s => ((k.smoothed c).wrench G (positionOf s) (velocityOf s) (turnOf s) (attitudeOf s)).1) ∧
    (LipVec fun s => ((k.smoothed c).wrench G (positionOf s) (velocityOf s) (turnOf s) (attitudeOf s)).2) := by
  have hh := heading_lip hc
  have w2 := turn_lip 2
  cases k with
  | stationKeeping I psiOf k x y psi =>
    refine ⟨keeper_lip I k x y, ?_⟩
    have h1 := LipVec.three (LipBox.const 0) (LipBox.const 0) ((LipBox.const (I 5 5)).mul (((LipBox.const ((2 * Real.pi / k.TPsi) ^ 2)).mul ((LipBox.const psi).sub hh)).sub ((LipBox.const (2 * k.ksiPsi * (2 * Real.pi / k.TPsi))).mul w2)))
    have h2 := (LipVec.const G).cross (keeper_lip I k x y)
    exact fun i => (h1 i).sub (h2 i)
  | heading I psiOf n ksi Tp psi =>
    refine ⟨LipVec.const 0, ?_⟩
    exact LipVec.three (LipBox.const 0) (LipBox.const 0) ((LipBox.const _).mul (((LipBox.const _).mul ((LipBox.const psi).sub hh)).sub ((LipBox.const _).mul w2)))

theorem controls_lip (G : Vec3 ℝ) {c : ℝ} (hc : 0 < c) : ∀ cs : List Control,
    (LipVec fun s => (((cs.map (Control.smoothed c)).map (Control.wrench G (positionOf s) (velocityOf s) (turnOf s) (attitudeOf s))).sum).1) ∧
    (LipVec fun s => (((cs.map (Control.smoothed c)).map (Control.wrench G (positionOf s) (velocityOf s) (turnOf s) (attitudeOf s))).sum).2)
  | [] => ⟨LipVec.const 0, LipVec.const 0⟩
  | k :: cs => by
    have h1 := control_lip G hc k
    have h2 := controls_lip G hc cs
    simp only [List.map_cons, List.sum_cons, Prod.fst_add, Prod.snd_add]
    exact ⟨h1.1.add h2.1, h1.2.add h2.2⟩

theorem total_regular (b : Multi.MBody ℝ) {Ms : Mat6 ℝ} (hcor : b.coriolis = inertialForces Ms) (l : List Push) (hl : ∀ f ∈ l, f.Regular) (cs : List Control) {c : ℝ} (hc : 0 < c) :
    Regular 13 (newton b.Minv (total b l (cs.map (Control.smoothed c)))) := by
  have hL : LipVec (fun s => linearMomentum Ms (velocityOf s) (turnOf s)) := fun i => LipBox.sum Finset.univ _ fun j => (LipBox.const _).mul (velocity6_lip j)
  have hA : LipVec (fun s => angularMomentum Ms (velocityOf s) (turnOf s)) := fun i => LipBox.sum Finset.univ _ fun j => (LipBox.const _).mul (velocity6_lip j)
  have hw := wrenches_lip b.G l hl
  have hk := controls_lip b.G hc cs
  refine newton_regular _ _ ?_ ?_
  · simp only [total, resultant, hcor, inertialForces, Prod.fst_add]
    exact ((hL.cross turn_lip).add hw.1).add hk.1
  · simp only [total, resultant, hcor, inertialForces, Prod.snd_add]
    exact (((hL.cross velocity_lip).add (hA.cross turn_lip)).add hw.2).add hk.2

/-- Where the heading is between -90 and 90 degrees, smoothing the controllers changes nothing. -/
theorem smoothed_same (b : Multi.MBody ℝ) (l : List Push) (cs : List Control) (hcs : ∀ k ∈ cs, k.ReadsHeading) {c : ℝ} (hc : 0 < c) (x : List ℝ) (hx : x.length = 13)
    (h : c ≤ (attitudeOf x).matrix 0 0) (t : ℝ) : newton b.Minv (total b l (cs.map (Control.smoothed c))) x t = newton b.Minv (total b l cs) x t := by
  have hone : ∀ k ∈ cs, Control.wrench b.G (positionOf x) (velocityOf x) (turnOf x) (attitudeOf x) (k.smoothed c) = Control.wrench b.G (positionOf x) (velocityOf x) (turnOf x) (attitudeOf x) k := by
    intro k hk
    have hr := hcs k hk
    cases k with
    | stationKeeping I psiOf k x' y psi =>
      have : psiOf (attitudeOf x).matrix = smoothHeading c (attitudeOf x).matrix := by rw [hr _ (lt_of_lt_of_le hc h), smoothHeading, max_eq_right h]
      simp only [Control.smoothed, Control.wrench, this]
    | heading I psiOf n ksi Tp psi =>
      have : psiOf (attitudeOf x).matrix = smoothHeading c (attitudeOf x).matrix := by rw [hr _ (lt_of_lt_of_le hc h), smoothHeading, max_eq_right h]
      simp only [Control.smoothed, Control.wrench, this]
  have htot : total b l (cs.map (Control.smoothed c)) (positionOf x) (velocityOf x) (turnOf x) (attitudeOf x) = total b l cs (positionOf x) (velocityOf x) (turnOf x) (attitudeOf x) := by
    simp only [total, List.map_map]
    congr 2
    exact List.map_congr_left (fun k hk => hone k hk)
  rw [newton_parts _ _ _ hx, newton_parts _ _ _ hx]
  simp only [acceleration, htot]

/-- Equations of motion with controllers: steps and normalisations in any order lead to states that are close to those of the exact motion. -/
theorem controlled_reach (b : Multi.MBody ℝ) {Ms : Mat6 ℝ} (hcor : b.coriolis = inertialForces Ms) (l : List Push) (hl : ∀ f ∈ l, f.Regular) (cs : List Control) (hcs : ∀ k ∈ cs, k.ReadsHeading)
    (T : Tableau ℝ) (hT : WellWeighted T) (ae1 : ℝ → Bool) {t0 D : ℝ} (hD : 0 ≤ D) (y : ℝ → List ℝ) (hy : IsMotion (newton b.Minv (total b l cs)) y) (hu : Unit4 (attitudeOf (y t0)))
    (hahead : ∀ t ∈ Set.Icc t0 (t0 + D), 0 < (attitudeOf (y t)).matrix 0 0) :
    ∃ C δ, 0 ≤ C ∧ 0 < δ ∧ ∀ dt, 0 ≤ dt → dt ≤ δ → ∀ (j : Nat) (x : List ℝ), Reach (newton b.Minv (total b l cs)) T ae1 (y t0) t0 dt j x → (j : ℝ) * dt ≤ D →
      x.length = 13 ∧ Near (C * dt) x (y (t0 + j * dt)) := by
  have hunit : ∀ t, attitudeNorm (y t) = 1 := fun t => by
    have := motion_unit (motion_moved hy t0) (by simpa using hu) (t - t0)
    simp only [sub_add_cancel] at this
    unfold Unit4 at this
    change Real.sqrt ((attitudeOf (y t)).w ^ 2 + (attitudeOf (y t)).x ^ 2 + (attitudeOf (y t)).y ^ 2 + (attitudeOf (y t)).z ^ 2) = 1
    rw [this, Real.sqrt_one]
  have hyI : ∀ t ∈ Set.Icc t0 (t0 + D), (y t).length = 13 ∧ ∀ i, HasDerivAt (fun t => (y t).getD i 0) ((newton b.Minv (total b l cs) (y t) t).getD i 0) t := fun t _ => hy t
  obtain ⟨r, hr, hin⟩ := motion_bounded y hyI
  obtain ⟨B0, L0, hB0, hL0, H0⟩ := matrix_lip 0 0 (r + 1)
  -- the least value of the cosine
  have hcont : ContinuousOn (fun t => (attitudeOf (y t)).matrix 0 0) (Set.Icc t0 (t0 + D)) := by
    intro t ht
    have hc : ∀ i, ContinuousAt (fun t => (y t).getD i 0) t := fun i => ((hy t).2 i).continuousAt
    have e : (fun t => (attitudeOf (y t)).matrix 0 0) = fun t => 1 - (2 * (y t).getD 11 0 * (y t).getD 11 0 + 2 * (y t).getD 12 0 * (y t).getD 12 0) := by
      funext t
      simp [Quat.matrix, attitudeOf]
    rw [e]
    exact (continuousAt_const.sub (((continuousAt_const.mul (hc 11)).mul (hc 11)).add ((continuousAt_const.mul (hc 12)).mul (hc 12)))).continuousWithinAt
  obtain ⟨tm, htm, hmin⟩ := isCompact_Icc.exists_isMinOn (Set.nonempty_Icc.mpr (by linarith)) hcont
  set m := (attitudeOf (y tm)).matrix 0 0 with hm
  have hm0 : 0 < m := hahead tm htm
  have hc : 0 < m / 2 := by linarith
  obtain ⟨B, L, ht⟩ := (total_regular b hcor l hl cs hc).tame (R := r + 1) (by linarith)
  set η := min 1 (m / 2 / (L0 + 1)) with hη
  have hη0 : 0 < η := lt_min one_pos (by positivity)
  refine reach_tube b.Minv (total b l cs) ht hη0 (min_le_left _ _) T hT ae1 hD y hy hunit ?_
  intro t htI x hx hnear s
  have hIx : Inside (r + 1) x := fun i => (hnear.inside (hin t htI) i).trans (by linarith [min_le_left 1 (m / 2 / (L0 + 1))])
  have hIy : Inside (r + 1) (y t) := fun i => (hin t htI i).trans (by linarith)
  have h1 := (H0 x hIx).2 (y t) η hIy hnear
  have h2 : m ≤ (attitudeOf (y t)).matrix 0 0 := hmin htI
  have h3 : L0 * η ≤ m / 2 := by
    have : η ≤ m / 2 / (L0 + 1) := min_le_right _ _
    rw [le_div_iff₀ (by linarith)] at this
    nlinarith
  have h4 : m / 2 ≤ (attitudeOf x).matrix 0 0 := by
    have := (abs_le.mp h1).1
    linarith
  rw [limited_eq hIx]
  exact smoothed_same b l cs hcs hc x hx h4 s

/-- **C200** One body with the usual force models and controllers that read its heading, whose equations of motion have an exact solution along which the heading stays between -90 and 90 degrees:
the observed states are at most `C dt` away from the exact ones, where `C` depends neither on the time step nor on the dates. -/
theorem controlled_simulation_converges (e : Multi.Entry ℝ) (he : Alone e) {Ms : Mat6 ℝ} (hcor : e.body.coriolis = inertialForces Ms) (ae : Nat → ℝ → ℝ → Bool) (hae : ∀ n a, ae n a a = true) (ae1 : ℝ → Bool)
    (l : List Push) (hl : e.forces = l.map (Push.model e.body)) (hb : ∀ f ∈ l, ¬ f.InBody) (hreg : ∀ f ∈ l, f.Regular)
    (cs : List Control) (hc : e.controlled = cs.map (Control.model e.body)) (hcs : ∀ k ∈ cs, k.ReadsHeading)
    (T : Tableau ℝ) (hT : Forward T) (hw : WellWeighted T) (y : ℝ → List ℝ) (hy : IsMotion (newton e.body.Minv (total e.body l cs)) y)
    (tstart D : ℝ) (hD : 0 ≤ D) (hu : Unit4 (attitudeOf (y tstart))) (hahead : ∀ t ∈ Set.Icc tstart (tstart + D), 0 < (attitudeOf (y t)).matrix 0 0) :
    ∃ C δ, 0 < δ ∧ ∀ dt, 0 < dt → dt ≤ δ → ∀ N : Nat, (N : ℝ) * dt ≤ D →
      ∀ tend, tend ≤ tstart + N * dt → (∀ i < N, tstart + (i : ℝ) * dt < tend) →
      ∀ s : Sim ℝ (Vec3 ℝ × Vec3 ℝ), s.state = y tstart → (∀ k ∈ cs, k.Commanded s.commands) → (∀ n, (field s.hist n).Tmax = 0) → NotAfter ae s.hist tstart → ∀ fuel, N ≤ fuel →
      ∀ sys, (sys = simSystem (oneBody e ae ae1) T.stepper ∨ sys = sscSystem (oneBody e ae ae1) T.stepper) →
      ∃ s' obs, quicksolve sys fuel s tstart tend dt = some (.ok (s', obs)) ∧ obs.length = N + 1 ∧
        ∀ (i : Nat) (hi : i < obs.length), obs[i].t = tstart + i * dt ∧ Near (C * dt) obs[i].x (y obs[i].t) := by
  obtain ⟨C, δ, hC, hδ, H⟩ := controlled_reach e.body hcor l hreg cs hcs T hw ae1 hD y hy hu hahead
  refine ⟨C, δ, hδ, ?_⟩
  intro dt hdt hd N hN tend htend hfirst s hs hcom h0 hh fuel hfuel sys hsys
  have hs13 : s.state.length = 13 := by rw [hs]; exact (hy tstart).1
  have hM := controlled_memoryless e he ae ae1 l hl hb cs hc s.commands hcom
  have key : ∃ s' obs, quicksolve sys fuel s tstart tend dt = some (.ok (s', obs)) ∧ obs.length = N + 1 ∧
      ∀ (i : Nat) (hi : i < obs.length), obs[i].t = tstart + i * dt ∧
        normalizeQuaternions ae1 1 (RK.rkRun (newton e.body.Minv (total e.body l cs)) (fun x _ => x) T s.state tstart dt i) = .ok obs[i].x := by
    rcases hsys with rfl | rfl
    · obtain ⟨s', obs, h1, _, h3, h4⟩ := simulation_is_runge_kutta hM hae T hT s rfl hs13 h0 tstart tend dt hdt hh N htend hfirst fuel hfuel
      exact ⟨s', obs, h1, h3, h4⟩
    · obtain ⟨s', obs, h1, _, h3, h4⟩ := executable_is_runge_kutta hM hae T hT s rfl hs13 h0 tstart tend dt hdt hh N htend hfirst fuel hfuel
      exact ⟨s', obs, h1, h3, h4⟩
  obtain ⟨s', obs, h1, h2, h3⟩ := key
  refine ⟨s', obs, h1, h2, fun i hi => ?_⟩
  obtain ⟨h4, h5⟩ := h3 i hi
  refine ⟨h4, ?_⟩
  rw [h4]
  have hlen := rkRun_length e.body.Minv (total e.body l cs) T s.state hs13 tstart dt i
  rw [(normalize_unitQuaternion ae1 _ hlen).1, hs] at h5
  rw [← Except.ok.inj h5]
  have hiN : (i : ℝ) * dt ≤ D := by
    have : (i : ℝ) ≤ N := by exact_mod_cast (by omega : i ≤ N)
    exact (mul_le_mul_of_nonneg_right this hdt.le).trans hN
  have hreach := (reach_run (newton e.body.Minv (total e.body l cs)) T ae1 (y tstart) tstart dt .start i).unit
  rw [Nat.cast_zero, zero_mul, add_zero, zero_add] at hreach
  exact (H dt hdt.le hd i _ hreach hiN).2

/-- **C200** The same with a client that makes any number of co-simulation requests. -/
theorem controlled_requests_converge (e : Multi.Entry ℝ) (he : Alone e) {Ms : Mat6 ℝ} (hcor : e.body.coriolis = inertialForces Ms) (ae : Nat → ℝ → ℝ → Bool) (hae : ∀ n a, ae n a a = true) (ae1 : ℝ → Bool)
    (l : List Push) (hl : e.forces = l.map (Push.model e.body)) (hb : ∀ f ∈ l, ¬ f.InBody) (hreg : ∀ f ∈ l, f.Regular)
    (cs : List Control) (hcm : e.controlled = cs.map (Control.model e.body)) (hcs : ∀ k ∈ cs, k.ReadsHeading)
    (T : Tableau ℝ) (hT : Forward T) (hw : WellWeighted T) (y : ℝ → List ℝ) (hy : IsMotion (newton e.body.Minv (total e.body l cs)) y)
    (tstart D : ℝ) (hD : 0 ≤ D) (hu : Unit4 (attitudeOf (y tstart))) (hahead : ∀ t ∈ Set.Icc tstart (tstart + D), 0 < (attitudeOf (y t)).matrix 0 0) :
    ∃ C δ, 0 < δ ∧ ∀ conf : StepConf ℝ, conf.stepper = T.stepper → 0 < conf.dt → conf.dt ≤ δ → (∀ a b c d, ∃ e, conf.angles a b c d = .ok e) →
      ∀ (fuel : Nat) (requests : List (Nat × ℝ)) (steps : List Nat),
      List.Forall₂ (fun (r : Nat × ℝ) (N : Nat) => 0 < r.2 ∧ r.2 ≤ N * conf.dt ∧ (∀ i : Nat, i < N → i * conf.dt < r.2) ∧ N ≤ fuel) requests steps →
      (steps.sum : ℝ) * conf.dt ≤ D →
      ∀ (s : Sim ℝ (Vec3 ℝ × Vec3 ℝ)) (cmd : Commands ℝ) (past : List (YamlState ℝ)) (last : YamlState ℝ), (∀ k ∈ cs, k.Commanded cmd) → (∀ n, cmd n = none → s.commands n = none) →
      List.Pairwise (fun a b => a.t ≤ b.t) (past ++ [last]) → last.t = tstart → stateAt last = y tstart →
      ∃ answers, chain (oneBody e ae ae1) conf 0 fuel cmd s (past ++ [last]) requests = some (.ok answers) ∧
        answers.map (List.map (fun o => o.1.t)) = cuts ((List.range (steps.sum + 1)).map (fun i : Nat => tstart + i * conf.dt)) steps ∧
        ∀ a ∈ answers, ∀ o ∈ a, Near (C * conf.dt) (stateAt o.1) (y o.1.t) := by
  obtain ⟨C, δ, hC, hδ, H⟩ := controlled_reach e.body hcor l hreg cs hcs T hw ae1 hD y hy hu hahead
  refine ⟨C, δ, hδ, ?_⟩
  intro conf hconf hdt hd hang fuel requests steps hsteps hsum s cmd past last hcom hc hp hlast hstate
  obtain ⟨answers, h1, h2⟩ := body_requests e he l hl hb cs hcm cmd hcom ae hae ae1 T hT conf hconf hdt hang fuel requests steps hsteps s past last hc hp
  rw [hstate, hlast] at h2
  refine ⟨answers, h1, ?_, fun a ha o ho => ?_⟩
  · have h3 := congrArg (List.map (List.map Prod.fst)) h2
    rw [List.map_map, pieces_dates _ (newton e.body.Minv (total e.body l cs)) _ _ _ _ _ (y tstart), pieces_cuts _ T conf.dt steps _ _ steps.sum le_rfl, cuts_map] at h3
    rw [show (List.map fun o : YamlState ℝ × Unit => o.1.t) = List.map Prod.fst ∘ List.map (fun y => (y.1.t, stateAt y.1)) by funext l; simp, h3]
    rw [List.map_map]
    rfl
  · have h3 : (a.map fun y => (y.1.t, stateAt y.1)) ∈ pieces (newton e.body.Minv (total e.body l cs)) (fun x _ => x) (fun x _ => unitQuaternion ae1 x) T conf.dt (y tstart)
        (tstart + ((0 : Nat) : ℝ) * conf.dt) steps := by
      rw [Nat.cast_zero, zero_mul, add_zero, ← h2]
      exact List.mem_map_of_mem ha
    obtain ⟨i, h4, h5, h6⟩ := pieces_reach _ T ae1 (y tstart) tstart conf.dt steps .start _ h3 (o.1.t, stateAt o.1) (List.mem_map_of_mem (f := fun y : YamlState ℝ × Unit => (y.1.t, stateAt y.1)) ho)
    have h7 : (i : ℝ) * conf.dt ≤ D := by
      have : (i : ℝ) ≤ steps.sum := by exact_mod_cast (by omega : i ≤ steps.sum)
      exact (mul_le_mul_of_nonneg_right this hdt.le).trans hsum
    have h8 := (H conf.dt hdt.le hd i _ h6 h7).2
    dsimp only at h5 h8
    rwa [← h5] at h8

/-! ### A ball that swings about the heading it must keep -/

noncomputable def compass (R : Mat3 ℝ) : ℝ := Real.arctan (R 1 0 / R 0 0)

/-- A ball of 1 kg with a heading controller without damping: period of 2π seconds, heading 0 asked for. -/
noncomputable def swinger : Control := .heading 1 compass "pilot" 0 (2 * Real.pi) 0

noncomputable def swingingBall : Multi.Entry ℝ := ⟨Server.top, [], [Control.model Server.top swinger]⟩

/-- Its heading is `sin t`, in radians. -/
noncomputable def swinging (t : ℝ) : List ℝ := [0, 0, 0, 0, 0, 0, 0, 0, Real.cos t, Real.cos (Real.sin t / 2), 0, 0, Real.sin (Real.sin t / 2)]

theorem swinging_matrix (t : ℝ) : (attitudeOf (swinging t)).matrix 0 0 = Real.cos (Real.sin t) ∧ (attitudeOf (swinging t)).matrix 1 0 = Real.sin (Real.sin t) := by
  have h : Real.sin t = 2 * (Real.sin t / 2) := by ring
  constructor
  · rw [h, Real.cos_two_mul]
    have := Real.sin_sq_add_cos_sq (Real.sin t / 2)
    simp [Quat.matrix, attitudeOf, swinging]
    linarith
  · rw [h, Real.sin_two_mul]
    simp [Quat.matrix, attitudeOf, swinging]

theorem swinging_ahead (t : ℝ) : 0 < (attitudeOf (swinging t)).matrix 0 0 := by
  rw [(swinging_matrix t).1]
  refine Real.cos_pos_of_mem_Ioo ⟨?_, ?_⟩
  · linarith [Real.neg_one_le_sin t, Real.pi_gt_three]
  · linarith [Real.sin_le_one t, Real.pi_gt_three]

theorem compass_swinging (t : ℝ) : compass (attitudeOf (swinging t)).matrix = Real.sin t := by
  rw [compass, (swinging_matrix t).1, (swinging_matrix t).2, ← Real.tan_eq_sin_div_cos, Real.arctan_tan]
  · linarith [Real.neg_one_le_sin t, Real.pi_gt_three]
  · linarith [Real.sin_le_one t, Real.pi_gt_three]

theorem swinging_newton (t : ℝ) : newton swingingBall.body.Minv (total swingingBall.body [] [swinger]) (swinging t) t =
    [0, 0, 0, 0, 0, 0, 0, 0, -Real.sin t, -Real.sin (Real.sin t / 2) * Real.cos t / 2, 0, 0, Real.cos (Real.sin t / 2) * Real.cos t / 2] := by
  have hpi : 2 * Real.pi / (2 * Real.pi) = 1 := div_self (by positivity)
  have hc := compass_swinging t
  have hw : Control.wrench swingingBall.body.G (positionOf (swinging t)) (velocityOf (swinging t)) (turnOf (swinging t)) (attitudeOf (swinging t)) swinger = (0, ![0, 0, -Real.sin t]) := by
    simp only [swinger, Control.wrench, hc, hpi]
    simp
  have ht : total swingingBall.body [] [swinger] (positionOf (swinging t)) (velocityOf (swinging t)) (turnOf (swinging t)) (attitudeOf (swinging t)) = (0, ![0, 0, -Real.sin t]) := by
    simp only [total, List.map_cons, List.map_nil, List.sum_cons, List.sum_nil, add_zero, hw]
    simp [resultant, swingingBall, Server.top, velocityOf, turnOf, swinging, cross]
  rw [newton_parts _ _ _ rfl]
  simp only [acceleration, ht]
  simp only [swingingBall, Server.top, Matrix.one_mulVec]
  simp [vec13, swinging, velocityOf, turnOf, attitudeOf, Quat.matrix, Matrix.mulVec, dotProduct, Fin.sum_univ_succ]

theorem swinging_motion : IsMotion (newton swingingBall.body.Minv (total swingingBall.body [] [swinger])) swinging := by
  intro t
  refine ⟨rfl, fun i => ?_⟩
  rw [swinging_newton]
  have hs : HasDerivAt (fun t => Real.sin t / 2) (Real.cos t / 2) t := (Real.hasDerivAt_sin t).div_const 2
  have h9 : HasDerivAt (fun t => Real.cos (Real.sin t / 2)) (-Real.sin (Real.sin t / 2) * Real.cos t / 2) t := by
    have := hs.cos
    rwa [mul_div_assoc]
  have h12 : HasDerivAt (fun t => Real.sin (Real.sin t / 2)) (Real.cos (Real.sin t / 2) * Real.cos t / 2) t := by
    have := hs.sin
    rwa [mul_div_assoc]
  have h0 : HasDerivAt (fun _ : ℝ => (0 : ℝ)) 0 t := hasDerivAt_const _ _
  match i with
  | 0 => exact h0
  | 1 => exact h0
  | 2 => exact h0
  | 3 => exact h0
  | 4 => exact h0
  | 5 => exact h0
  | 6 => exact h0
  | 7 => exact h0
  | 8 => exact Real.hasDerivAt_cos t
  | 9 => exact h9
  | 10 => exact h0
  | 11 => exact h0
  | 12 => exact h12
  | n + 13 => exact h0

/-- The simulations of this ball during a hundred seconds with `rk4`: the hypotheses of C200 are met, and the errors are at most a constant times the time step. -/
example : ∃ C δ, 0 < δ ∧ ∀ dt, 0 < dt → dt ≤ δ → ∀ N : Nat, (N : ℝ) * dt ≤ 100 →
    ∃ s' obs, quicksolve (simSystem (oneBody swingingBall (fun _ a b => decide (a = b)) (fun _ => false)) rk4Method.stepper) N
        ⟨swinging 0, noHistory, fun n => if n = "pilot(psi_co)" then some 0 else none, [], 0⟩ 0 (N * dt) dt = some (.ok (s', obs)) ∧ obs.length = N + 1 ∧
      ∀ (i : Nat) (hi : i < obs.length), obs[i].t = 0 + i * dt ∧ Near (C * dt) obs[i].x (swinging obs[i].t) := by
  obtain ⟨C, δ, hδ, H⟩ := controlled_simulation_converges swingingBall ⟨rfl, by decide, fun _ => rfl⟩ (Ms := 1) top_inertial (fun _ a b => decide (a = b)) (by simp) (fun _ => false)
    [] rfl (by simp) (by simp) [swinger] rfl (by simp only [List.mem_singleton, forall_eq]; exact fun R _ => rfl) rk4Method rk4_forward rk4_weighted swinging swinging_motion 0 100 (by norm_num)
    (by simp [swinging, Unit4, attitudeOf]) (fun t _ => swinging_ahead t)
  refine ⟨C, δ, hδ, fun dt hdt hd N hN => H dt hdt hd N hN (N * dt) (by rw [zero_add]) (fun i hi => ?_) _ rfl ?_ (fun n => by cases n <;> rfl) (noHistory_notAfter _ _) N le_rfl _ (Or.inl rfl)⟩
  · rw [zero_add]
    exact mul_lt_mul_of_pos_right (by exact_mod_cast hi) hdt
  · simp only [List.mem_singleton, forall_eq, swinger, Control.Commanded]
    rfl

end Xdyn.Sim

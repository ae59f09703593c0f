import Verif.Spec.Converge
import Verif.Props.Frame
import Mathlib.Analysis.Calculus.MeanValue
import Mathlib.Data.List.GetD
import Mathlib.Analysis.SpecialFunctions.Exp

/-! Property C198: the simulations converge to the exact motion. -/

namespace Xdyn.Sim

open Blocked Body Spec Solver Xdyn.Server

/-! ### Lists of states -/

theorem Near.symm {e : ℝ} {x y : List ℝ} (h : Near e x y) : Near e y x := fun i => by rw [abs_sub_comm]; exact h i

theorem Near.triangle {e e' : ℝ} {x y z : List ℝ} (h : Near e x y) (h' : Near e' y z) : Near (e + e') x z := fun i => by
  have := abs_sub_le (x.getD i 0) (y.getD i 0) (z.getD i 0)
  linarith [h i, h' i]

theorem Near.mono {e e' : ℝ} {x y : List ℝ} (h : Near e x y) (he : e ≤ e') : Near e' x y := fun i => (h i).trans he

theorem Near.inside {e R : ℝ} {x y : List ℝ} (h : Near e x y) (hy : Inside R y) : Inside (R + e) x := fun i => by
  have h1 := h i
  have h2 := hy i
  rw [abs_le] at h1 h2 ⊢
  constructor <;> linarith

theorem near_refl (x : List ℝ) : Near 0 x x := fun i => by simp

theorem zipWith_getD (c : ℝ) {n : Nat} (x k : List ℝ) (hx : x.length = n) (hk : k.length = n) (i : Nat) :
    (List.zipWith (fun xi ki => xi + c * ki) x k).getD i 0 = x.getD i 0 + c * k.getD i 0 := by
  by_cases hi : i < n
  · simp [List.getD_eq_getElem?_getD, hx, hk, hi]
  · rw [List.getD_eq_default, List.getD_eq_default, List.getD_eq_default]
    · simp
    all_goals first | omega | (simp only [List.length_zipWith, hx, hk]; omega)

/-- Component `i` of `a1 k1 + a2 k2 + ...`. -/
noncomputable def weighted (a : List ℝ) (ks : List (List ℝ)) (i : Nat) : ℝ := ((List.zip a ks).map fun p => p.1 * p.2.getD i 0).sum

theorem move_spec {n : Nat} (dt : ℝ) : ∀ (a : List ℝ) (ks : List (List ℝ)) (x : List ℝ) (_ : x.length = n) (_ : ∀ k ∈ ks, k.length = n),
    (RK.move dt x a ks).length = n ∧ ∀ i, (RK.move dt x a ks).getD i 0 = x.getD i 0 + dt * weighted a ks i
  | [], ks, x, hx, _ => by simp [RK.move, weighted, hx]
  | _ :: _, [], x, hx, _ => by simp [RK.move, weighted, hx]
  | a :: as, k :: ks, x, hx, hk => by
    have hk0 : k.length = n := hk k (by simp)
    have ih := move_spec dt as ks (List.zipWith (fun xi ki => xi + dt * a * ki) x k) (by simp [hx, hk0]) (fun k' h => hk k' (by simp [h]))
    refine ⟨ih.1, fun i => ?_⟩
    rw [show RK.move dt x (a :: as) (k :: ks) = RK.move dt (List.zipWith (fun xi ki => xi + dt * a * ki) x k) as ks from rfl, ih.2 i, zipWith_getD (dt * a) x k hx hk0]
    simp only [weighted, List.zip_cons_cons, List.map_cons, List.sum_cons]
    ring

/-- Sum of the absolute values. -/
noncomputable def size (a : List ℝ) : ℝ := (a.map abs).sum

theorem size_nonneg (a : List ℝ) : 0 ≤ size a := List.sum_nonneg (by simp)

theorem weighted_bound (B : ℝ) (hB : 0 ≤ B) : ∀ (a : List ℝ) (ks : List (List ℝ)) (_ : ∀ k ∈ ks, Inside B k) (i : Nat), |weighted a ks i| ≤ size a * B
  | [], ks, _, i => by simp [weighted, size]
  | a :: as, [], _, i => by simpa [weighted] using mul_nonneg (size_nonneg (a :: as)) hB
  | a :: as, k :: ks, h, i => by
    have ih := weighted_bound B hB as ks (fun k' h' => h k' (by simp [h'])) i
    have hk := h k (by simp) i
    simp only [weighted, List.zip_cons_cons, List.map_cons, List.sum_cons, size] at ih ⊢
    refine (abs_add_le _ _).trans ?_
    rw [abs_mul, add_mul]
    exact add_le_add (mul_le_mul_of_nonneg_left hk (abs_nonneg a)) ih

theorem weighted_mean (eta : ℝ) (k0 : List ℝ) : ∀ (a : List ℝ) (ks : List (List ℝ)) (_ : a.length = ks.length) (_ : ∀ k ∈ ks, Near eta k k0) (i : Nat),
    |weighted a ks i - a.sum * k0.getD i 0| ≤ size a * eta
  | [], [], _, _, i => by simp [weighted, size]
  | [], _ :: _, h, _, _ => by simp at h
  | _ :: _, [], h, _, _ => by simp at h
  | a :: as, k :: ks, hlen, h, i => by
    have ih := weighted_mean eta k0 as ks (by simpa using hlen) (fun k' h' => h k' (by simp [h'])) i
    have hk := h k (by simp) i
    simp only [weighted, List.zip_cons_cons, List.map_cons, List.sum_cons, size] at ih ⊢
    rw [show a * k.getD i 0 + ((as.zip ks).map fun p => p.1 * p.2.getD i 0).sum - (a + as.sum) * k0.getD i 0 =
      a * (k.getD i 0 - k0.getD i 0) + (((as.zip ks).map fun p => p.1 * p.2.getD i 0).sum - as.sum * k0.getD i 0) by ring]
    refine (abs_add_le _ _).trans ?_
    rw [abs_mul, add_mul]
    exact add_le_add (mul_le_mul_of_nonneg_left hk (abs_nonneg a)) ih

/-! ### Bounded Lipschitz equations -/

/-- Equations that do not depend on the date, bounded by `B`, Lipschitz with the constant `L`. -/
structure Tame (n : Nat) (f : List ℝ → ℝ → List ℝ) (B L : ℝ) : Prop where
  length : ∀ x t, x.length = n → (f x t).length = n
  bounded : ∀ x t, x.length = n → Inside B (f x t)
  lipschitz : ∀ x x' t t' d, x.length = n → x'.length = n → Near d x x' → Near (L * d) (f x t) (f x' t')
  B_nonneg : 0 ≤ B
  L_nonneg : 0 ≤ L

theorem move_near {n : Nat} {dt A B : ℝ} (hdt : 0 ≤ dt) (hB : 0 ≤ B) (a : List ℝ) (ha : size a ≤ A) (ks : List (List ℝ)) (x : List ℝ) (hx : x.length = n)
    (hk : ∀ k ∈ ks, k.length = n ∧ Inside B k) : Near (dt * A * B) (RK.move dt x a ks) x := fun i => by
  rw [(move_spec dt a ks x hx (fun k h => (hk k h).1)).2 i, add_sub_cancel_left, abs_mul, abs_of_nonneg hdt, mul_assoc]
  exact mul_le_mul_of_nonneg_left ((weighted_bound B hB a ks (fun k h => (hk k h).2) i).trans (mul_le_mul_of_nonneg_right ha hB)) hdt

theorem stages_near {n : Nat} {f : List ℝ → ℝ → List ℝ} {B L : ℝ} (hf : Tame n f B L) {dt A : ℝ} (hdt : 0 ≤ dt) (x : List ℝ) (hx : x.length = n) (t t0 : ℝ) :
    ∀ (rows : List (ℝ × List ℝ)) (_ : ∀ r ∈ rows, size r.2 ≤ A) (ks : List (List ℝ)) (_ : ∀ k ∈ ks, k.length = n ∧ Inside B k ∧ Near (L * (dt * A * B)) k (f x t0)),
      (RK.rkStages f x t dt rows ks).length = ks.length + rows.length ∧ ∀ k ∈ RK.rkStages f x t dt rows ks, k.length = n ∧ Inside B k ∧ Near (L * (dt * A * B)) k (f x t0)
  | [], _, ks, hk => ⟨by simp [RK.rkStages], hk⟩
  | (c, a) :: rows, hr, ks, hk => by
    have hm := move_spec dt a ks x hx (fun k h => (hk k h).1)
    have hnear := move_near hdt hf.B_nonneg a (hr (c, a) (by simp)) ks x hx (fun k h => ⟨(hk k h).1, (hk k h).2.1⟩)
    obtain ⟨h1, h2⟩ := stages_near hf hdt x hx t t0 rows (fun r h => hr r (by simp [h])) (ks ++ [f (RK.move dt x a ks) (t + c * dt)]) (by
      intro k hk'
      rcases List.mem_append.mp hk' with h | h
      · exact hk k h
      · rw [List.mem_singleton.mp h]
        exact ⟨hf.length _ _ hm.1, hf.bounded _ _ hm.1, hf.lipschitz _ _ _ _ _ hm.1 hx hnear⟩)
    refine ⟨?_, h2⟩
    rw [RK.rkStages, h1]
    simp
    omega

/-- A bound on the coefficients of the stages. -/
noncomputable def rowSize (T : Tableau ℝ) : ℝ := (T.stages.map fun r => size r.2).sum

theorem rowSize_spec (T : Tableau ℝ) : 0 ≤ rowSize T ∧ ∀ r ∈ T.stages, size r.2 ≤ rowSize T :=
  ⟨List.sum_nonneg (by simp only [List.mem_map, forall_exists_index, and_imp, forall_apply_eq_imp_iff₂]; exact fun r _ => size_nonneg r.2),
    fun r hr => List.single_le_sum (by simp only [List.mem_map, forall_exists_index, and_imp, forall_apply_eq_imp_iff₂]; exact fun r _ => size_nonneg r.2) _ (List.mem_map_of_mem hr)⟩

/-- A step of a Runge-Kutta method is a step of Euler's method, up to a constant times the square of the time step. -/
theorem step_near_euler {n : Nat} {f : List ℝ → ℝ → List ℝ} {B L : ℝ} (hf : Tame n f B L) (T : Tableau ℝ) (hT : WellWeighted T) {dt : ℝ} (hdt : 0 ≤ dt) (x : List ℝ) (hx : x.length = n) (t t0 : ℝ) :
    (RK.rkStep f T x t dt).length = n ∧ Near (size T.weights * L * rowSize T * B * dt ^ 2) (RK.rkStep f T x t dt) (along x dt (f x t0)) := by
  obtain ⟨h1, h2⟩ := stages_near hf hdt x hx t t0 T.stages (rowSize_spec T).2 [] (by simp)
  have hm := move_spec dt T.weights (RK.rkStages f x t dt T.stages []) x hx (fun k h => (h2 k h).1)
  refine ⟨hm.1, fun i => ?_⟩
  rw [RK.rkStep, hm.2 i, along, zipWith_getD dt x _ hx (hf.length x t0 hx)]
  have hw := weighted_mean (L * (dt * rowSize T * B)) (f x t0) T.weights (RK.rkStages f x t dt T.stages []) (by rw [h1, hT.length]; simp) (fun k h => (h2 k h).2.2) i
  rw [hT.sum, one_mul] at hw
  rw [show x.getD i 0 + dt * weighted T.weights (RK.rkStages f x t dt T.stages []) i - (x.getD i 0 + dt * (f x t0).getD i 0) =
    dt * (weighted T.weights (RK.rkStages f x t dt T.stages []) i - (f x t0).getD i 0) by ring, abs_mul, abs_of_nonneg hdt]
  refine (mul_le_mul_of_nonneg_left hw hdt).trans (le_of_eq ?_)
  ring

/-! ### Exact motions -/

theorem motion_slow {n : Nat} {f : List ℝ → ℝ → List ℝ} {B L : ℝ} (hf : Tame n f B L) {t0 t1 : ℝ} (y : ℝ → List ℝ)
    (hy : ∀ t ∈ Set.Icc t0 t1, (y t).length = n ∧ ∀ i, HasDerivAt (fun t => (y t).getD i 0) ((f (y t) t).getD i 0) t)
    {t s : ℝ} (ht : t0 ≤ t) (hts : t ≤ s) (hs : s ≤ t1) : Near (B * (s - t)) (y s) (y t) := fun i => by
  have := norm_image_sub_le_of_norm_deriv_le_segment' (f := fun t => (y t).getD i 0) (f' := fun t => (f (y t) t).getD i 0) (a := t) (b := s) (C := B)
    (fun u hu => ((hy u ⟨ht.trans hu.1, hu.2.trans hs⟩).2 i).hasDerivWithinAt)
    (fun u hu => hf.bounded _ _ (hy u ⟨ht.trans hu.1, hu.2.le.trans hs⟩).1 i) s ⟨hts, le_refl s⟩
  simpa [Real.norm_eq_abs] using this

/-- A motion during `dt` is a step of Euler's method, up to a constant times the square of `dt`. -/
theorem motion_near_euler {n : Nat} {f : List ℝ → ℝ → List ℝ} {B L : ℝ} (hf : Tame n f B L) {t0 t1 : ℝ} (y : ℝ → List ℝ)
    (hy : ∀ t ∈ Set.Icc t0 t1, (y t).length = n ∧ ∀ i, HasDerivAt (fun t => (y t).getD i 0) ((f (y t) t).getD i 0) t)
    {t dt : ℝ} (ht : t0 ≤ t) (hdt : 0 ≤ dt) (hs : t + dt ≤ t1) (t' : ℝ) : Near (L * B * dt ^ 2) (y (t + dt)) (along (y t) dt (f (y t) t')) := fun i => by
  have hyt := hy t ⟨ht, by linarith⟩
  have hd : ∀ u ∈ Set.Icc t (t + dt), HasDerivWithinAt (fun u => (y u).getD i 0 - u * (f (y t) t').getD i 0) ((f (y u) u).getD i 0 - 1 * (f (y t) t').getD i 0) (Set.Icc t (t + dt)) u :=
    fun u hu => (((hy u ⟨ht.trans hu.1, hu.2.trans hs⟩).2 i).sub ((hasDerivAt_id u).mul_const _)).hasDerivWithinAt
  have := norm_image_sub_le_of_norm_deriv_le_segment' hd (C := L * B * dt) (fun u hu => by
    have h1 := hf.lipschitz (y u) (y t) u t' _ (hy u ⟨ht.trans hu.1, hu.2.le.trans hs⟩).1 hyt.1 (motion_slow hf y hy ht hu.1 (hu.2.le.trans hs)) i
    rw [one_mul, Real.norm_eq_abs]
    refine h1.trans ?_
    rw [mul_assoc]
    refine mul_le_mul_of_nonneg_left (mul_le_mul_of_nonneg_left ?_ hf.B_nonneg) hf.L_nonneg
    linarith [hu.2]) (t + dt) ⟨by linarith, le_refl _⟩
  rw [along, zipWith_getD dt _ _ hyt.1 (hf.length _ t' hyt.1)]
  rw [Real.norm_eq_abs] at this
  rw [show (y (t + dt)).getD i 0 - ((y t).getD i 0 + dt * (f (y t) t').getD i 0) =
    (y (t + dt)).getD i 0 - (t + dt) * (f (y t) t').getD i 0 - ((y t).getD i 0 - t * (f (y t) t').getD i 0) by ring]
  refine this.trans (le_of_eq ?_)
  ring

theorem euler_near {n : Nat} {f : List ℝ → ℝ → List ℝ} {B L : ℝ} (hf : Tame n f B L) {dt : ℝ} (hdt : 0 ≤ dt) {e : ℝ} {x y : List ℝ} (hx : x.length = n) (hy : y.length = n) (h : Near e x y) (t t' : ℝ) :
    Near ((1 + L * dt) * e) (along x dt (f x t)) (along y dt (f y t')) := fun i => by
  rw [along, along, zipWith_getD dt _ _ hx (hf.length _ _ hx), zipWith_getD dt _ _ hy (hf.length _ _ hy)]
  have h1 := h i
  have h2 := hf.lipschitz x y t t' e hx hy h i
  rw [show x.getD i 0 + dt * (f x t).getD i 0 - (y.getD i 0 + dt * (f y t').getD i 0) = (x.getD i 0 - y.getD i 0) + dt * ((f x t).getD i 0 - (f y t').getD i 0) by ring]
  refine (abs_add_le _ _).trans ?_
  rw [abs_mul, abs_of_nonneg hdt]
  have := mul_le_mul_of_nonneg_left h2 hdt
  linarith

/-- Bounded Lipschitz equations: the error is at most a constant times the time step. -/
theorem tame_converges {n : Nat} {f : List ℝ → ℝ → List ℝ} {B L : ℝ} (hf : Tame n f B L) (T : Tableau ℝ) (hT : WellWeighted T) {t0 D : ℝ} (y : ℝ → List ℝ)
    (hy : ∀ t ∈ Set.Icc t0 (t0 + D), (y t).length = n ∧ ∀ i, HasDerivAt (fun t => (y t).getD i 0) ((f (y t) t).getD i 0) t) {dt : ℝ} (hdt : 0 ≤ dt) :
    ∀ N : Nat, (N : ℝ) * dt ≤ D →
      (RK.rkRun f (fun x _ => x) T (y t0) t0 dt N).length = n ∧
      Near (N * dt * ((size T.weights * rowSize T + 1) * L * B * dt) * (1 + L * dt) ^ N) (RK.rkRun f (fun x _ => x) T (y t0) t0 dt N) (y (t0 + N * dt))
  | 0, hN => by
    have h0 : (y t0).length = n := (hy t0 ⟨le_refl _, by simpa using hN⟩).1
    refine ⟨h0, ?_⟩
    simpa [RK.rkRun] using near_refl (y t0)
  | N + 1, hN => by
    push_cast at hN
    have hNdt : 0 ≤ (N : ℝ) * dt := mul_nonneg (Nat.cast_nonneg N) hdt
    obtain ⟨h1, h2⟩ := tame_converges hf T hT y hy hdt N (by linarith)
    obtain ⟨h3, h4⟩ := step_near_euler hf T hT hdt (RK.rkRun f (fun x _ => x) T (y t0) t0 dt N) h1 (t0 + N * dt) 0
    refine ⟨h3, ?_⟩
    have hyN := hy (t0 + N * dt) ⟨by linarith, by linarith⟩
    have h5 := motion_near_euler hf y hy (t := t0 + N * dt) (by linarith) hdt (by linarith) 0
    have h6 := (h4.triangle (euler_near hf hdt h1 hyN.1 h2 0 0)).triangle h5.symm
    rw [show t0 + (N : ℝ) * dt + dt = t0 + ((N + 1 : Nat) : ℝ) * dt by push_cast; ring] at h6
    refine h6.mono ?_
    push_cast
    have hL := hf.L_nonneg
    have hB := hf.B_nonneg
    have hS := mul_nonneg (size_nonneg T.weights) (rowSize_spec T).1
    have hone : 1 ≤ (1 + L * dt) ^ (N + 1) := one_le_pow₀ (by nlinarith [mul_nonneg hL hdt])
    have hC : 0 ≤ (size T.weights * rowSize T + 1) * L * B * dt ^ 2 := by positivity
    have hp : (1 + L * dt) * (N * dt * ((size T.weights * rowSize T + 1) * L * B * dt) * (1 + L * dt) ^ N) =
      N * ((size T.weights * rowSize T + 1) * L * B * dt ^ 2) * (1 + L * dt) ^ (N + 1) := by ring
    rw [hp]
    have hq : ((N : ℝ) + 1) * dt * ((size T.weights * rowSize T + 1) * L * B * dt) * (1 + L * dt) ^ (N + 1) =
      N * ((size T.weights * rowSize T + 1) * L * B * dt ^ 2) * (1 + L * dt) ^ (N + 1) + ((size T.weights * rowSize T + 1) * L * B * dt ^ 2) * (1 + L * dt) ^ (N + 1) := by ring
    rw [hq]
    have := mul_le_mul_of_nonneg_left hone hC
    nlinarith

/-! ### Equations that are Lipschitz where the states are bounded -/

/-- A function of the states which is bounded and Lipschitz where the states are bounded. -/
def LipBox (g : List ℝ → ℝ) : Prop :=
  ∀ R, ∃ B L, 0 ≤ B ∧ 0 ≤ L ∧ ∀ x, Inside R x → |g x| ≤ B ∧ ∀ x' d, Inside R x' → Near d x x' → |g x - g x'| ≤ L * d

theorem Near.nonneg {d : ℝ} {x y : List ℝ} (h : Near d x y) : 0 ≤ d := (abs_nonneg _).trans (h 0)

theorem LipBox.const (c : ℝ) : LipBox (fun _ => c) := fun _ =>
  ⟨|c|, 0, abs_nonneg c, le_refl _, fun _ _ => ⟨le_refl _, fun _ _ _ _ => by simp⟩⟩

theorem LipBox.coordinate (i : Nat) : LipBox (fun x => x.getD i 0) := fun R =>
  ⟨|R|, 1, abs_nonneg R, zero_le_one, fun _ h => ⟨(h i).trans (le_abs_self R), fun _ d _ hd => by rw [one_mul]; exact hd i⟩⟩

theorem LipBox.add {g h : List ℝ → ℝ} (hg : LipBox g) (hh : LipBox h) : LipBox (fun x => g x + h x) := fun R => by
  obtain ⟨B, L, hB, hL, H⟩ := hg R
  obtain ⟨B', L', hB', hL', H'⟩ := hh R
  refine ⟨B + B', L + L', add_nonneg hB hB', add_nonneg hL hL', fun x hx => ⟨(abs_add_le _ _).trans (add_le_add (H x hx).1 (H' x hx).1), fun x' d hx' hd => ?_⟩⟩
  rw [show g x + h x - (g x' + h x') = (g x - g x') + (h x - h x') by ring, add_mul]
  exact (abs_add_le _ _).trans (add_le_add ((H x hx).2 x' d hx' hd) ((H' x hx).2 x' d hx' hd))

theorem LipBox.mul {g h : List ℝ → ℝ} (hg : LipBox g) (hh : LipBox h) : LipBox (fun x => g x * h x) := fun R => by
  obtain ⟨B, L, hB, hL, H⟩ := hg R
  obtain ⟨B', L', hB', hL', H'⟩ := hh R
  refine ⟨B * B', L * B' + B * L', mul_nonneg hB hB', add_nonneg (mul_nonneg hL hB') (mul_nonneg hB hL'), fun x hx => ⟨?_, fun x' d hx' hd => ?_⟩⟩
  · rw [abs_mul]
    exact mul_le_mul (H x hx).1 (H' x hx).1 (abs_nonneg _) hB
  · rw [show g x * h x - g x' * h x' = (g x - g x') * h x + g x' * (h x - h x') by ring]
    refine (abs_add_le _ _).trans ?_
    rw [abs_mul, abs_mul]
    have h1 := mul_le_mul ((H x hx).2 x' d hx' hd) (H' x hx).1 (abs_nonneg _) (mul_nonneg hL hd.nonneg)
    have h2 := mul_le_mul (H x' hx').1 ((H' x hx).2 x' d hx' hd) (abs_nonneg _) hB
    linarith

theorem LipBox.neg {g : List ℝ → ℝ} (hg : LipBox g) : LipBox (fun x => -g x) := by
  simpa using (LipBox.const (-1)).mul hg

theorem LipBox.sub {g h : List ℝ → ℝ} (hg : LipBox g) (hh : LipBox h) : LipBox (fun x => g x - h x) := by
  simpa [sub_eq_add_neg] using hg.add hh.neg

theorem LipBox.comp {g : List ℝ → ℝ} (hg : LipBox g) {r : ℝ → ℝ} (hr : LipschitzOnIntervals r) : LipBox (fun x => r (g x)) := fun R => by
  obtain ⟨B, L, hB, hL, H⟩ := hg R
  obtain ⟨K, HK⟩ := hr B
  refine ⟨|r 0| + |K| * B, |K| * L, add_nonneg (abs_nonneg _) (mul_nonneg (abs_nonneg _) hB), mul_nonneg (abs_nonneg _) hL, fun x hx => ⟨?_, fun x' d hx' hd => ?_⟩⟩
  · have h1 := HK (g x) 0 (H x hx).1 (by simpa using hB)
    have h2 : K * |g x - 0| ≤ |K| * B := by
      rw [sub_zero]
      exact (mul_le_mul_of_nonneg_right (le_abs_self K) (abs_nonneg _)).trans (mul_le_mul_of_nonneg_left (H x hx).1 (abs_nonneg K))
    have h3 := abs_add_le (r 0) (r (g x) - r 0)
    rw [add_sub_cancel] at h3
    linarith
  · have h1 := HK (g x) (g x') (H x hx).1 (H x' hx').1
    have h2 := (mul_le_mul_of_nonneg_right (le_abs_self K) (abs_nonneg (g x - g x'))).trans (mul_le_mul_of_nonneg_left ((H x hx).2 x' d hx' hd) (abs_nonneg K))
    rw [mul_assoc]
    exact h1.trans h2

theorem abs_lipschitz : LipschitzOnIntervals (fun a => |a|) := fun _ => ⟨1, fun a b _ _ => by rw [one_mul]; exact abs_abs_sub_abs_le a b⟩

/-- Equations that do not depend on the date, Lipschitz where the states are bounded. -/
structure Regular (n : Nat) (f : List ℝ → ℝ → List ℝ) : Prop where
  length : ∀ x t, x.length = n → (f x t).length = n
  component : ∀ i, ∃ g, LipBox g ∧ ∀ x t, x.length = n → (f x t).getD i 0 = g x

/-- The states, limited to the interval `[-R, R]`. -/
noncomputable def limited (R : ℝ) (x : List ℝ) : List ℝ := x.map fun a => max (-R) (min R a)

theorem limited_length (R : ℝ) (x : List ℝ) : (limited R x).length = x.length := by simp [limited]

theorem limited_getD {R : ℝ} (hR : 0 ≤ R) (x : List ℝ) (i : Nat) : (limited R x).getD i 0 = max (-R) (min R (x.getD i 0)) := by
  have h0 : (0 : ℝ) = max (-R) (min R 0) := by rw [min_eq_right hR, max_eq_right (by linarith)]
  unfold limited
  conv_lhs => rw [h0]
  rw [List.getD_map]

theorem limited_inside {R : ℝ} (hR : 0 ≤ R) (x : List ℝ) : Inside R (limited R x) := fun i => by
  rw [limited_getD hR, abs_le]
  exact ⟨le_max_left _ _, max_le (by linarith) (min_le_left _ _)⟩

theorem limited_eq {R : ℝ} {x : List ℝ} (h : Inside R x) : limited R x = x := by
  unfold limited
  refine (List.map_congr_left fun a ha => ?_).trans (List.map_id x)
  obtain ⟨i, hi, rfl⟩ := List.getElem_of_mem ha
  have := abs_le.mp (h i)
  rw [List.getD_eq_getElem _ _ hi] at this
  rw [min_eq_right this.2, max_eq_right this.1, id]

theorem limited_near {R : ℝ} (hR : 0 ≤ R) {d : ℝ} {x y : List ℝ} (h : Near d x y) : Near d (limited R x) (limited R y) := fun i => by
  rw [limited_getD hR, limited_getD hR]
  refine (abs_max_sub_max_le_max _ _ _ _).trans (max_le (by simpa using h.nonneg) ?_)
  refine (abs_min_sub_min_le_max _ _ _ _).trans (max_le (by simpa using h.nonneg) (h i))

/-- Regular equations are tame once the states are limited. -/
theorem Regular.tame {n : Nat} {f : List ℝ → ℝ → List ℝ} (hf : Regular n f) {R : ℝ} (hR : 0 ≤ R) :
    ∃ B L, Tame n (fun x t => f (limited R x) t) B L := by
  choose g hg hfg using hf.component
  choose B L hB hL H using fun i => hg i R
  have hout : ∀ (b : Nat → ℝ) (_ : ∀ i, 0 ≤ b i) (x : List ℝ) (_ : x.length = n) (c : ℝ) (i : Nat) (_ : |x.getD i 0| ≤ b i * c) (_ : 0 ≤ c), |x.getD i 0| ≤ (∑ j ∈ Finset.range n, b j) * c := by
    intro b hb x hx c i hi hc
    by_cases hin : i < n
    · exact hi.trans (mul_le_mul_of_nonneg_right (Finset.single_le_sum (fun j _ => hb j) (Finset.mem_range.mpr hin)) hc)
    · rw [List.getD_eq_default _ _ (by omega), abs_zero]
      exact mul_nonneg (Finset.sum_nonneg fun j _ => hb j) hc
  refine ⟨∑ i ∈ Finset.range n, B i, ∑ i ∈ Finset.range n, L i, ?_, ?_, ?_, Finset.sum_nonneg fun i _ => hB i, Finset.sum_nonneg fun i _ => hL i⟩
  · intro x t hx
    exact hf.length _ t (by rw [limited_length, hx])
  · intro x t hx i
    have hx' : (limited R x).length = n := by rw [limited_length, hx]
    have := hout B hB _ (hf.length _ t hx') 1 i (by rw [hfg i _ t hx', mul_one]; exact (H i _ (limited_inside hR x)).1) zero_le_one
    rwa [mul_one] at this
  · intro x x' t t' d hx hx' hd i
    have h1 : (limited R x).length = n := by rw [limited_length, hx]
    have h2 : (limited R x').length = n := by rw [limited_length, hx']
    by_cases hin : i < n
    · rw [hfg i _ t h1, hfg i _ t' h2]
      refine ((H i _ (limited_inside hR x)).2 _ d (limited_inside hR x') (limited_near hR hd)).trans ?_
      exact mul_le_mul_of_nonneg_right (Finset.single_le_sum (fun j _ => hL j) (Finset.mem_range.mpr hin)) hd.nonneg
    · rw [List.getD_eq_default _ _ (by rw [hf.length _ t h1]; omega), List.getD_eq_default _ _ (by rw [hf.length _ t' h2]; omega), sub_zero, abs_zero]
      exact mul_nonneg (Finset.sum_nonneg fun j _ => hL j) hd.nonneg

/-- A motion is bounded during a given time. -/
theorem motion_bounded {n : Nat} {f : List ℝ → ℝ → List ℝ} {t0 t1 : ℝ} (y : ℝ → List ℝ)
    (hy : ∀ t ∈ Set.Icc t0 t1, (y t).length = n ∧ ∀ i, HasDerivAt (fun t => (y t).getD i 0) ((f (y t) t).getD i 0) t) :
    ∃ R, 0 ≤ R ∧ ∀ t ∈ Set.Icc t0 t1, Inside R (y t) := by
  have hc : ∀ i, ∃ C, ∀ t ∈ Set.Icc t0 t1, ‖(y t).getD i 0‖ ≤ C := fun i =>
    isCompact_Icc.exists_bound_of_continuousOn (f := fun t => (y t).getD i 0) (fun t ht => ((hy t ht).2 i).continuousAt.continuousWithinAt)
  choose C hC using hc
  refine ⟨∑ i ∈ Finset.range n, |C i|, Finset.sum_nonneg fun i _ => abs_nonneg _, fun t ht i => ?_⟩
  by_cases hin : i < n
  · exact (hC i t ht).trans ((le_abs_self _).trans (Finset.single_le_sum (f := fun i => |C i|) (fun j _ => abs_nonneg _) (Finset.mem_range.mpr hin)))
  · rw [List.getD_eq_default _ _ (by rw [(hy t ht).1]; omega), abs_zero]
    exact Finset.sum_nonneg fun i _ => abs_nonneg _

/-- As long as the states of the stages stay in the interval, limiting them changes nothing. -/
theorem stages_limited {n : Nat} {f : List ℝ → ℝ → List ℝ} {B L R : ℝ} (hf : Tame n (fun x t => f (limited R x) t) B L) {dt A r : ℝ} (hdt : 0 ≤ dt) (x : List ℝ) (hx : x.length = n)
    (hr : Inside r x) (hR : r + dt * A * B ≤ R) (t : ℝ) :
    ∀ (rows : List (ℝ × List ℝ)) (_ : ∀ r ∈ rows, size r.2 ≤ A) (ks : List (List ℝ)) (_ : ∀ k ∈ ks, k.length = n ∧ Inside B k),
      RK.rkStages (fun x t => f (limited R x) t) x t dt rows ks = RK.rkStages f x t dt rows ks
  | [], _, ks, hk => rfl
  | (c, a) :: rows, hrow, ks, hk => by
    have hm := move_spec dt a ks x hx (fun k h => (hk k h).1)
    have hnear := move_near hdt hf.B_nonneg a (hrow (c, a) (by simp)) ks x hx hk
    have hin : Inside R (RK.move dt x a ks) := fun i => (hnear.inside hr i).trans hR
    have heq := limited_eq hin
    rw [RK.rkStages, RK.rkStages]
    have ih := stages_limited hf hdt x hx hr hR t rows (fun r h => hrow r (by simp [h])) (ks ++ [f (limited R (RK.move dt x a ks)) (t + c * dt)]) (by
      intro k hk'
      rcases List.mem_append.mp hk' with h | h
      · exact hk k h
      · rw [List.mem_singleton.mp h]
        exact ⟨hf.length _ _ hm.1, hf.bounded _ _ hm.1⟩)
    rw [ih, heq]

/-- Regular equations: the error is at most a constant times the time step. -/
theorem regular_converges {n : Nat} {f : List ℝ → ℝ → List ℝ} (hf : Regular n f) (T : Tableau ℝ) (hT : WellWeighted T) {t0 D : ℝ} (hD : 0 ≤ D) (y : ℝ → List ℝ)
    (hy : ∀ t ∈ Set.Icc t0 (t0 + D), (y t).length = n ∧ ∀ i, HasDerivAt (fun t => (y t).getD i 0) ((f (y t) t).getD i 0) t) :
    ∃ C δ, 0 ≤ C ∧ 0 < δ ∧ ∀ dt, 0 ≤ dt → dt ≤ δ → ∀ N : Nat, (N : ℝ) * dt ≤ D →
      Near (C * dt) (RK.rkRun f (fun x _ => x) T (y t0) t0 dt N) (y (t0 + N * dt)) := by
  obtain ⟨r, hr, hin⟩ := motion_bounded y hy
  obtain ⟨B, L, ht⟩ := hf.tame (R := r + 1) (by linarith)
  have hy' : ∀ t ∈ Set.Icc t0 (t0 + D), (y t).length = n ∧ ∀ i, HasDerivAt (fun t => (y t).getD i 0) ((f (limited (r + 1) (y t)) t).getD i 0) t := by
    intro t h
    rw [limited_eq (fun i => (hin t h i).trans (by linarith))]
    exact hy t h
  have hB := ht.B_nonneg
  have hL := ht.L_nonneg
  have hS := size_nonneg T.weights
  have hA := (rowSize_spec T).1
  set K := (size T.weights * rowSize T + 1) * L * B with hK
  have hK0 : 0 ≤ K := by positivity
  set C := D * K * Real.exp (L * D) with hCdef
  have hC : 0 ≤ C := by positivity
  set δ := min (1 / 2 / (C + 1)) (1 / 2 / (rowSize T * B + 1)) with hδ
  have hδ0 : 0 < δ := lt_min (by positivity) (by positivity)
  have main : ∀ dt, 0 ≤ dt → ∀ N : Nat, (N : ℝ) * dt ≤ D →
      (RK.rkRun (fun x t => f (limited (r + 1) x) t) (fun x _ => x) T (y t0) t0 dt N).length = n ∧
      Near (C * dt) (RK.rkRun (fun x t => f (limited (r + 1) x) t) (fun x _ => x) T (y t0) t0 dt N) (y (t0 + N * dt)) := by
    intro dt hdt N hN
    obtain ⟨h1, h2⟩ := tame_converges ht T hT y hy' hdt N hN
    refine ⟨h1, h2.mono ?_⟩
    have he : (1 + L * dt) ^ N ≤ Real.exp (L * D) := by
      refine (pow_le_pow_left₀ (by positivity) (show 1 + L * dt ≤ Real.exp (L * dt) by linarith [Real.add_one_le_exp (L * dt)]) N).trans ?_
      rw [← Real.exp_nat_mul]
      refine Real.exp_le_exp.mpr ?_
      nlinarith [mul_le_mul_of_nonneg_left hN hL]
    have h3 : (N : ℝ) * dt * (K * dt) ≤ D * (K * dt) := mul_le_mul_of_nonneg_right hN (by positivity)
    have h4 := mul_le_mul h3 he (by positivity) (by positivity)
    refine h4.trans (le_of_eq ?_)
    rw [hCdef]; ring
  refine ⟨C, δ, hC, hδ0, fun dt hdt hd => ?_⟩
  have hd1 : C * dt ≤ 1 / 2 := by
    have : dt ≤ 1 / 2 / (C + 1) := hd.trans (min_le_left _ _)
    rw [le_div_iff₀ (by positivity)] at this
    nlinarith
  have hd2 : dt * rowSize T * B ≤ 1 / 2 := by
    have : dt ≤ 1 / 2 / (rowSize T * B + 1) := hd.trans (min_le_right _ _)
    rw [le_div_iff₀ (by positivity)] at this
    nlinarith
  have same : ∀ N : Nat, (N : ℝ) * dt ≤ D → RK.rkRun (fun x t => f (limited (r + 1) x) t) (fun x _ => x) T (y t0) t0 dt N = RK.rkRun f (fun x _ => x) T (y t0) t0 dt N := by
    intro N
    induction N with
    | zero => intro _; rfl
    | succ N ih =>
      intro hN
      push_cast at hN
      have hNdt : 0 ≤ (N : ℝ) * dt := mul_nonneg (Nat.cast_nonneg N) hdt
      have hN' : (N : ℝ) * dt ≤ D := by linarith
      obtain ⟨h1, h2⟩ := main dt hdt N hN'
      have h3 : Inside (r + 1 / 2) (RK.rkRun (fun x t => f (limited (r + 1) x) t) (fun x _ => x) T (y t0) t0 dt N) := fun i =>
        (h2.inside (hin (t0 + N * dt) ⟨by linarith, by linarith⟩) i).trans (by linarith)
      rw [RK.rkRun, RK.rkRun, ← ih hN', RK.rkStep, RK.rkStep]
      rw [stages_limited ht hdt _ h1 h3 (A := rowSize T) (by linarith) (t0 + N * dt) T.stages (rowSize_spec T).2 [] (by simp)]
  intro N hN
  rw [← same N hN]
  exact (main dt hdt N hN).2

/-! ### The equations of motion -/

theorem LipBox.sum {ι : Type} (l : Finset ι) (g : ι → List ℝ → ℝ) (h : ∀ i, LipBox (g i)) : LipBox (fun x => ∑ i ∈ l, g i x) := by
  classical
  induction l using Finset.induction_on with
  | empty => simpa using LipBox.const 0
  | insert a l ha ih =>
    simp only [Finset.sum_insert ha]
    exact (h a).add ih

/-- A vector, function of the states, whose coordinates are bounded and Lipschitz where the states are bounded. -/
def LipVec {n : Nat} (v : List ℝ → Fin n → ℝ) : Prop := ∀ i, LipBox (fun x => v x i)

theorem LipVec.const {n : Nat} (v : Fin n → ℝ) : LipVec (fun _ => v) := fun i => LipBox.const (v i)

theorem LipVec.add {n : Nat} {v w : List ℝ → Fin n → ℝ} (hv : LipVec v) (hw : LipVec w) : LipVec (fun x => v x + w x) := fun i => (hv i).add (hw i)

theorem LipVec.mulVec {n m : Nat} {M : List ℝ → Matrix (Fin n) (Fin m) ℝ} (hM : ∀ i j, LipBox (fun x => M x i j)) {v : List ℝ → Fin m → ℝ} (hv : LipVec v) :
    LipVec (fun x => (M x).mulVec (v x)) := fun i => LipBox.sum Finset.univ _ fun j => (hM i j).mul (hv j)

theorem LipVec.three {a b c : List ℝ → ℝ} (ha : LipBox a) (hb : LipBox b) (hc : LipBox c) : LipVec (fun x => ![a x, b x, c x]) := by
  intro i; fin_cases i <;> assumption

theorem LipVec.cross {v w : List ℝ → Vec3 ℝ} (hv : LipVec v) (hw : LipVec w) : LipVec (fun x => cross (v x) (w x)) :=
  LipVec.three (((hv 1).mul (hw 2)).sub ((hv 2).mul (hw 1))) (((hv 2).mul (hw 0)).sub ((hv 0).mul (hw 2))) (((hv 0).mul (hw 1)).sub ((hv 1).mul (hw 0)))

theorem velocity_lip : LipVec velocityOf := LipVec.three (LipBox.coordinate 3) (LipBox.coordinate 4) (LipBox.coordinate 5)

theorem turn_lip : LipVec turnOf := LipVec.three (LipBox.coordinate 6) (LipBox.coordinate 7) (LipBox.coordinate 8)

theorem velocity6_lip : LipVec (fun x => velocity6 (velocityOf x) (turnOf x)) := by
  intro i
  fin_cases i
  exacts [LipBox.coordinate 3, LipBox.coordinate 4, LipBox.coordinate 5, LipBox.coordinate 6, LipBox.coordinate 7, LipBox.coordinate 8]

theorem matrix_lip (i j : Fin 3) : LipBox (fun x => (attitudeOf x).matrix i j) := by
  have hw : LipBox (fun x => (attitudeOf x).w) := LipBox.coordinate 9
  have hx : LipBox (fun x => (attitudeOf x).x) := LipBox.coordinate 10
  have hy : LipBox (fun x => (attitudeOf x).y) := LipBox.coordinate 11
  have hz : LipBox (fun x => (attitudeOf x).z) := LipBox.coordinate 12
  have h2 := LipBox.const 2
  have h1 := LipBox.const 1
  fin_cases i <;> fin_cases j <;> simp only [Quat.matrix] <;>
    repeat' first | assumption | exact LipBox.const _ | refine LipBox.neg ?_ | refine LipBox.add ?_ ?_ | refine LipBox.mul ?_ ?_

theorem newton_regular (Minv : Mat6 ℝ) (F : Vec3 ℝ → Vec3 ℝ → Vec3 ℝ → Quat ℝ → Vec3 ℝ × Vec3 ℝ)
    (h1 : LipVec fun s => (F (positionOf s) (velocityOf s) (turnOf s) (attitudeOf s)).1) (h2 : LipVec fun s => (F (positionOf s) (velocityOf s) (turnOf s) (attitudeOf s)).2) :
    Regular 13 (newton Minv F) := by
  have hacc : LipVec (acceleration Minv F) := by
    unfold acceleration
    refine LipVec.mulVec (M := fun _ => Minv) (fun i j => LipBox.const _) ?_
    intro i
    fin_cases i
    exacts [h1 0, h1 1, h1 2, h2 0, h2 1, h2 2]
  have hV : LipVec (fun s => (attitudeOf s).matrix.mulVec (velocityOf s)) := LipVec.mulVec matrix_lip velocity_lip
  have hw : LipBox (fun x => (attitudeOf x).w) := LipBox.coordinate 9
  have hx : LipBox (fun x => (attitudeOf x).x) := LipBox.coordinate 10
  have hy : LipBox (fun x => (attitudeOf x).y) := LipBox.coordinate 11
  have hz : LipBox (fun x => (attitudeOf x).z) := LipBox.coordinate 12
  have t0 := turn_lip 0
  have t1 := turn_lip 1
  have t2 := turn_lip 2
  have half : ∀ {g : List ℝ → ℝ}, LipBox g → LipBox (fun x => g x / 2) := fun h => by
    simpa [div_eq_mul_inv] using h.mul (LipBox.const (2⁻¹))
  refine ⟨fun x t hx => newton_length _ _ x t hx, fun i => ?_⟩
  refine ⟨fun s => (vec13 ((attitudeOf s).matrix.mulVec (velocityOf s))
      (fun i => acceleration Minv F s (i.castLE (by omega))) (fun i => acceleration Minv F s (i.natAdd 3))
      ⟨(-(attitudeOf s).x * turnOf s 0 - (attitudeOf s).y * turnOf s 1 - (attitudeOf s).z * turnOf s 2) / 2,
       ((attitudeOf s).w * turnOf s 0 + (attitudeOf s).y * turnOf s 2 - (attitudeOf s).z * turnOf s 1) / 2,
       ((attitudeOf s).w * turnOf s 1 - (attitudeOf s).x * turnOf s 2 + (attitudeOf s).z * turnOf s 0) / 2,
       ((attitudeOf s).w * turnOf s 2 + (attitudeOf s).x * turnOf s 1 - (attitudeOf s).y * turnOf s 0) / 2⟩).getD i 0, ?_, fun x t hx => by rw [newton_parts _ _ _ hx]⟩
  match i with
  | 0 => exact hV 0
  | 1 => exact hV 1
  | 2 => exact hV 2
  | 3 => exact hacc 0
  | 4 => exact hacc 1
  | 5 => exact hacc 2
  | 6 => exact hacc 3
  | 7 => exact hacc 4
  | 8 => exact hacc 5
  | 9 => exact half (((hx.neg.mul t0).sub (hy.mul t1)).sub (hz.mul t2))
  | 10 => exact half (((hw.mul t0).add (hy.mul t2)).sub (hz.mul t1))
  | 11 => exact half (((hw.mul t1).sub (hx.mul t2)).add (hz.mul t0))
  | 12 => exact half (((hw.mul t2).add (hx.mul t1)).sub (hy.mul t0))
  | i + 13 => exact LipBox.const 0

theorem wrench_lip (G : Vec3 ℝ) (f : Push) (hf : f.Regular) :
    (LipVec fun s => (f.wrench G (velocityOf s) (turnOf s) (attitudeOf s)).1) ∧ (LipVec fun s => (f.wrench G (velocityOf s) (turnOf s) (attitudeOf s)).2) := by
  have hT : ∀ i j, LipBox (fun x => (attitudeOf x).matrix.transpose i j) := fun i j => matrix_lip j i
  have u0 := velocity_lip 0
  have u1 := velocity_lip 1
  have u2 := velocity_lip 2
  have w0 := turn_lip 0
  have w1 := turn_lip 1
  have w2 := turn_lip 2
  match f, hf with
  | .gravity M g, _ => exact ⟨LipVec.mulVec hT (LipVec.const _), LipVec.const _⟩
  | .linearDamping P D, _ =>
    constructor <;> intro i <;> simp only [Push.wrench] <;>
      repeat' first | assumption | exact LipBox.const _ | refine LipBox.neg ?_ | refine LipBox.add ?_ ?_ | refine LipBox.mul ?_ ?_
  | .quadraticDamping P D, _ =>
    constructor <;> intro i <;> simp only [Push.wrench] <;>
      repeat' first | assumption | exact LipBox.const _ | refine LipBox.neg ?_ | refine LipBox.add ?_ ?_ | refine LipBox.mul ?_ ?_ | refine LipBox.comp ?_ abs_lipschitz
  | .resistance P R, hR => exact ⟨LipVec.three (LipBox.comp u0 hR).neg (LipBox.const 0) (LipBox.const 0), LipVec.const _⟩
  | .bodyForce f m P, _ => exact ⟨LipVec.const _, LipVec.const _⟩
  | .nedForce f m P, _ => exact ⟨LipVec.mulVec hT (LipVec.const _), LipVec.mulVec hT (LipVec.const _)⟩

theorem wrenches_lip (G : Vec3 ℝ) : ∀ (l : List Push) (_ : ∀ f ∈ l, f.Regular),
    (LipVec fun s => ((l.map (Push.wrench G (velocityOf s) (turnOf s) (attitudeOf s))).sum).1) ∧ (LipVec fun s => ((l.map (Push.wrench G (velocityOf s) (turnOf s) (attitudeOf s))).sum).2)
  | [], _ => ⟨LipVec.const 0, LipVec.const 0⟩
  | f :: l, h => by
    have h1 := wrench_lip G f (h f (by simp))
    have h2 := wrenches_lip G l (fun f' hf' => h f' (by simp [hf']))
    simp only [List.map_cons, List.sum_cons, Prod.fst_add, Prod.snd_add]
    exact ⟨h1.1.add h2.1, h1.2.add h2.2⟩

/-- The equations of motion of a body with the usual force models are regular. -/
theorem resultant_regular (b : Multi.MBody ℝ) {Ms : Mat6 ℝ} (hcor : b.coriolis = inertialForces Ms) (l : List Push) (hl : ∀ f ∈ l, f.Regular) :
    Regular 13 (newton b.Minv (fun _ => resultant b l)) := by
  have hL : LipVec (fun s => linearMomentum Ms (velocityOf s) (turnOf s)) := fun i => LipBox.sum Finset.univ _ fun j => (LipBox.const _).mul (velocity6_lip j)
  have hA : LipVec (fun s => angularMomentum Ms (velocityOf s) (turnOf s)) := fun i => LipBox.sum Finset.univ _ fun j => (LipBox.const _).mul (velocity6_lip j)
  have hw := wrenches_lip b.G l hl
  refine newton_regular _ _ ?_ ?_
  · simp only [resultant, hcor, inertialForces, Prod.fst_add]
    exact (hL.cross turn_lip).add hw.1
  · simp only [resultant, hcor, inertialForces, Prod.snd_add]
    exact ((hL.cross velocity_lip).add (hA.cross turn_lip)).add hw.2

/-! ### What is observed -/

theorem unitQuaternion_near (ae1 : ℝ → Bool) {e : ℝ} (he : e ≤ 1 / 24) {x y : List ℝ} (hx : x.length = 13) (hy : y.length = 13) (hu : Unit4 (attitudeOf y)) (h : Near e x y) :
    Near (13 * e) (unitQuaternion ae1 x) y := by
  have he0 := h.nonneg
  by_cases hsame : unitQuaternion ae1 x = x
  · rw [hsame]; exact h.mono (by linarith)
  match x, hx, y, hy with
  | [x0, x1, x2, x3, x4, x5, x6, x7, x8, a, b, c, d], _, [y0, y1, y2, y3, y4, y5, y6, y7, y8, a', b', c', d'], _ =>
    have hu' : a' ^ 2 + b' ^ 2 + c' ^ 2 + d' ^ 2 = 1 := hu
    set n := Real.sqrt (a ^ 2 + b ^ 2 + c ^ 2 + d ^ 2) with hn
    have hn0 : 0 ≤ n := Real.sqrt_nonneg _
    have hn2 : n ^ 2 = a ^ 2 + b ^ 2 + c ^ 2 + d ^ 2 := Real.sq_sqrt (by positivity)
    have ha : |a - a'| ≤ e := h 9
    have hb : |b - b'| ≤ e := h 10
    have hc : |c - c'| ≤ e := h 11
    have hd : |d - d'| ≤ e := h 12
    have sq : ∀ z z' : ℝ, |z - z'| ≤ e → z' ^ 2 ≤ 1 → |z ^ 2 - z' ^ 2| ≤ 3 * e := by
      intro z z' hz hz'
      rw [show z ^ 2 - z' ^ 2 = (z - z') * ((z - z') + 2 * z') by ring, abs_mul]
      have h1 : |z'| ≤ 1 := by rw [← sq_abs] at hz'; nlinarith [abs_nonneg z']
      have h2 : |(z - z') + 2 * z'| ≤ 3 := by
        refine (abs_add_le _ _).trans ?_
        rw [abs_mul, abs_two]; linarith
      nlinarith [abs_nonneg (z - z'), mul_le_mul hz h2 (abs_nonneg _) he0]
    have hA := abs_le.mp (sq a a' ha (by nlinarith))
    have hB := abs_le.mp (sq b b' hb (by nlinarith))
    have hC := abs_le.mp (sq c c' hc (by nlinarith))
    have hD := abs_le.mp (sq d d' hd (by nlinarith))
    have hnn : |n - 1| ≤ 12 * e := by
      have h3 : |n - 1| * (n + 1) = |n ^ 2 - 1| := by rw [show n ^ 2 - 1 = (n - 1) * (n + 1) by ring, abs_mul, abs_of_nonneg (show 0 ≤ n + 1 by linarith)]
      have h4 : |n ^ 2 - 1| ≤ 12 * e := by rw [hn2, ← hu', abs_le]; constructor <;> linarith [hA.1, hA.2, hB.1, hB.2, hC.1, hC.2, hD.1, hD.2]
      nlinarith [abs_nonneg (n - 1), mul_nonneg (abs_nonneg (n - 1)) hn0]
    have hnpos : 0 < n := by have := (abs_le.mp hnn).1; linarith
    have comp : ∀ z z' : ℝ, z ^ 2 ≤ n ^ 2 → |z - z'| ≤ e → |z / n - z'| ≤ 13 * e := by
      intro z z' hz hzz
      have h1 : |z| ≤ n := abs_le_of_sq_le_sq hz hn0
      have h2 : |z / n - z| ≤ 12 * e := by
        rw [show z / n - z = z / n * (1 - n) by field_simp, abs_mul, abs_div, abs_of_pos hnpos, abs_sub_comm 1 n]
        have h3 : |z| / n ≤ 1 := (div_le_one hnpos).mpr h1
        nlinarith [abs_nonneg (n - 1), mul_le_mul_of_nonneg_right h3 (abs_nonneg (n - 1))]
      have := abs_sub_le (z / n) z z'
      linarith
    have huq : unitQuaternion ae1 [x0, x1, x2, x3, x4, x5, x6, x7, x8, a, b, c, d] = [x0, x1, x2, x3, x4, x5, x6, x7, x8, a / n, b / n, c / n, d / n] := by
      unfold unitQuaternion at hsame ⊢
      dsimp only at hsame ⊢
      split
      · rename_i hif
        exact absurd (if_pos hif) hsame
      · rfl
    rw [huq]
    intro i
    match i with
    | 0 => exact (h 0).trans (by linarith)
    | 1 => exact (h 1).trans (by linarith)
    | 2 => exact (h 2).trans (by linarith)
    | 3 => exact (h 3).trans (by linarith)
    | 4 => exact (h 4).trans (by linarith)
    | 5 => exact (h 5).trans (by linarith)
    | 6 => exact (h 6).trans (by linarith)
    | 7 => exact (h 7).trans (by linarith)
    | 8 => exact (h 8).trans (by linarith)
    | 9 => exact comp a a' (by nlinarith) ha
    | 10 => exact comp b b' (by nlinarith) hb
    | 11 => exact comp c c' (by nlinarith) hc
    | 12 => exact comp d d' (by nlinarith) hd
    | i + 13 => simpa using he0

theorem motion_moved {Minv : Mat6 ℝ} {F : Vec3 ℝ → Vec3 ℝ → Vec3 ℝ → Quat ℝ → Vec3 ℝ × Vec3 ℝ} {y : ℝ → List ℝ} (hy : IsMotion (newton Minv F) y) (tau : ℝ) :
    IsMotion (newton Minv F) (fun t => y (t + tau)) := fun t => by
  refine ⟨(hy (t + tau)).1, fun i => ?_⟩
  have := ((hy (t + tau)).2 i).comp_add_const t tau
  rwa [newton_autonomous Minv F _ (t + tau) t] at this

/-- **C198** One body with the usual force models and no controller, whose equations of motion have an exact solution `y`, simulated with any Runge-Kutta method
that goes forward and whose weights have the sum 1, from the exact states at the date `tstart`: the simulation goes to the end, and all the observed states
are at most `C dt` away from the exact ones, where `C` depends neither on the time step nor on the dates. -/
theorem simulation_converges (e : Multi.Entry ℝ) (he : Alone e) {Ms : Mat6 ℝ} (hcor : e.body.coriolis = inertialForces Ms) (ae : Nat → ℝ → ℝ → Bool) (hae : ∀ n a, ae n a a = true) (ae1 : ℝ → Bool)
    (l : List Push) (hl : e.forces = l.map (Push.model e.body)) (hb : ∀ f ∈ l, ¬ f.InBody) (hreg : ∀ f ∈ l, f.Regular) (hc : e.controlled = [])
    (T : Tableau ℝ) (hT : Forward T) (hw : WellWeighted T) (y : ℝ → List ℝ) (hy : IsMotion (newton e.body.Minv (fun _ => resultant e.body l)) y)
    (tstart D : ℝ) (hD : 0 ≤ D) (hu : Unit4 (attitudeOf (y tstart))) :
    ∃ C δ, 0 < δ ∧ ∀ dt, 0 < dt → dt ≤ δ → ∀ N : Nat, (N : ℝ) * dt ≤ D →
      ∀ tend, tend ≤ tstart + N * dt → (∀ i < N, tstart + (i : ℝ) * dt < tend) →
      ∀ s : Sim ℝ (Vec3 ℝ × Vec3 ℝ), s.state = y tstart → (∀ n, (field s.hist n).Tmax = 0) → NotAfter ae s.hist tstart → ∀ fuel, N ≤ fuel →
      ∀ sys, (sys = simSystem (oneBody e ae ae1) T.stepper ∨ sys = sscSystem (oneBody e ae ae1) T.stepper) →
      ∃ s' obs, quicksolve sys fuel s tstart tend dt = some (.ok (s', obs)) ∧ obs.length = N + 1 ∧
        ∀ (i : Nat) (hi : i < obs.length), obs[i].t = tstart + i * dt ∧ Near (C * dt) obs[i].x (y obs[i].t) := by
  set f := newton e.body.Minv (fun _ => resultant e.body l) with hf
  obtain ⟨C, δ, hC, hδ, H⟩ := regular_converges (resultant_regular e.body hcor l hreg) T hw hD y (fun t _ => hy t)
  have hunit : ∀ t, Unit4 (attitudeOf (y t)) := fun t => by
    have := motion_unit (motion_moved hy tstart) (by simpa using hu) (t - tstart)
    simpa using this
  refine ⟨13 * C, min δ (1 / 24 / (C + 1)), lt_min hδ (by positivity), ?_⟩
  intro dt hdt hd N hN tend htend hfirst s hs h0 hh fuel hfuel sys hsys
  have hs13 : s.state.length = 13 := by rw [hs]; exact (hy tstart).1
  have hM := mechanical_memoryless e he ae ae1 l hl hb hc s.commands
  have key : ∃ s' obs, quicksolve sys fuel s tstart tend dt = some (.ok (s', obs)) ∧ obs.length = N + 1 ∧
      ∀ (i : Nat) (hi : i < obs.length), obs[i].t = tstart + i * dt ∧
        normalizeQuaternions ae1 1 (RK.rkRun f (fun x _ => x) T s.state tstart dt i) = .ok obs[i].x := by
    rcases hsys with rfl | rfl
    · obtain ⟨s', obs, h1, _, h3, h4⟩ := simulation_is_runge_kutta hM hae T hT s rfl hs13 h0 tstart tend dt hdt hh N htend hfirst fuel hfuel
      exact ⟨s', obs, h1, h3, h4⟩
    · obtain ⟨s', obs, h1, _, h3, h4⟩ := executable_is_runge_kutta hM hae T hT s rfl hs13 h0 tstart tend dt hdt hh N htend hfirst fuel hfuel
      exact ⟨s', obs, h1, h3, h4⟩
  obtain ⟨s', obs, h1, h2, h3⟩ := key
  refine ⟨s', obs, h1, h2, fun i hi => ?_⟩
  obtain ⟨h4, h5⟩ := h3 i hi
  refine ⟨h4, ?_⟩
  rw [h4]
  have hlen := rkRun_length e.body.Minv (fun _ => resultant e.body l) T s.state hs13 tstart dt i
  rw [(normalize_unitQuaternion ae1 _ hlen).1] at h5
  rw [← Except.ok.inj h5]
  have hiN : (i : ℝ) * dt ≤ D := by
    have : (i : ℝ) ≤ N := by exact_mod_cast (by omega : i ≤ N)
    exact (mul_le_mul_of_nonneg_right this hdt.le).trans hN
  have h6 := H dt hdt.le (hd.trans (min_le_left _ _)) i hiN
  rw [← hs] at h6
  have hsmall : C * dt ≤ 1 / 24 := by
    have : dt ≤ 1 / 24 / (C + 1) := hd.trans (min_le_right _ _)
    rw [le_div_iff₀ (by positivity)] at this
    nlinarith
  rw [mul_assoc]
  exact unitQuaternion_near ae1 hsmall hlen (hy _).1 (hunit _) h6

/-- The solvers `euler` and `rk4` have the weights that are needed. -/
theorem euler_weighted : WellWeighted (eulerMethod : Tableau ℝ) := ⟨by simp [eulerMethod], by simp [eulerMethod]⟩

theorem rk4_weighted : WellWeighted (rk4Method : Tableau ℝ) :=
  ⟨by simp only [rk4Method, List.sum_cons, List.sum_nil]; norm_num, by simp [rk4Method]⟩

/-- The exact motion from given states, if there is one, is unique: it is the limit of the simulations. -/
theorem motion_unique {n : Nat} {f : List ℝ → ℝ → List ℝ} (hf : Regular n f) {t0 t1 : ℝ} (h01 : t0 ≤ t1) (y y' : ℝ → List ℝ)
    (hy : ∀ t ∈ Set.Icc t0 t1, (y t).length = n ∧ ∀ i, HasDerivAt (fun t => (y t).getD i 0) ((f (y t) t).getD i 0) t)
    (hy' : ∀ t ∈ Set.Icc t0 t1, (y' t).length = n ∧ ∀ i, HasDerivAt (fun t => (y' t).getD i 0) ((f (y' t) t).getD i 0) t) (h0 : y t0 = y' t0) : y t1 = y' t1 := by
  have hD : 0 ≤ t1 - t0 := by linarith
  have hadd : t0 + (t1 - t0) = t1 := by ring
  obtain ⟨C, δ, hC, hδ, H⟩ := regular_converges (T := eulerMethod) hf euler_weighted hD y (by rwa [hadd])
  obtain ⟨C', δ', hC', hδ', H'⟩ := regular_converges (T := eulerMethod) hf euler_weighted hD y' (by rwa [hadd])
  have hlen : (y t1).length = (y' t1).length := by rw [(hy t1 ⟨h01, le_rfl⟩).1, (hy' t1 ⟨h01, le_rfl⟩).1]
  have near : ∀ ε > 0, Near ε (y t1) (y' t1) := by
    intro ε hε
    obtain ⟨N, hN⟩ := exists_nat_gt ((t1 - t0) * ((C + C') / ε + 1 / δ + 1 / δ'))
    have hN0 : 0 < (N : ℝ) := lt_of_le_of_lt (by positivity) hN
    set dt := (t1 - t0) / N with hdt
    have hdt0 : 0 ≤ dt := by positivity
    have hNdt : (N : ℝ) * dt = t1 - t0 := by rw [hdt]; field_simp
    have a1 : 0 ≤ (t1 - t0) * ((C + C') / ε) := by positivity
    have a2 : 0 ≤ (t1 - t0) * (1 / δ) := by positivity
    have a3 : 0 ≤ (t1 - t0) * (1 / δ') := by positivity
    have b1 : dt ≤ δ := by
      rw [hdt, div_le_iff₀ hN0]
      have : (t1 - t0) * (1 / δ) ≤ N := by nlinarith
      rw [mul_one_div, div_le_iff₀ hδ] at this
      linarith
    have b2 : dt ≤ δ' := by
      rw [hdt, div_le_iff₀ hN0]
      have : (t1 - t0) * (1 / δ') ≤ N := by nlinarith
      rw [mul_one_div, div_le_iff₀ hδ'] at this
      linarith
    have b3 : C * dt + C' * dt ≤ ε := by
      rw [← add_mul, hdt, mul_div_assoc', div_le_iff₀ hN0]
      have : (t1 - t0) * ((C + C') / ε) ≤ N := by nlinarith
      rw [mul_div_assoc', div_le_iff₀ hε] at this
      linarith
    have h1 := H dt hdt0 b1 N hNdt.le
    have h2 := H' dt hdt0 b2 N hNdt.le
    rw [hNdt, hadd] at h1 h2
    rw [h0] at h1
    exact (h1.symm.triangle h2).mono b3
  refine List.ext_getElem hlen fun i h1 h2 => ?_
  have : |(y t1).getD i 0 - (y' t1).getD i 0| ≤ 0 := le_of_forall_pos_le_add fun ε hε => by rw [zero_add]; exact near ε hε i
  rw [List.getD_eq_getElem _ _ h1, List.getD_eq_getElem _ _ h2] at this
  have := abs_nonpos_iff.mp this
  linarith

/-- **C198** Two motions of a body with the usual force models that start from the same states are the same. -/
theorem motions_unique (b : Multi.MBody ℝ) {Ms : Mat6 ℝ} (hcor : b.coriolis = inertialForces Ms) (l : List Push) (hreg : ∀ f ∈ l, f.Regular) (y y' : ℝ → List ℝ)
    (hy : IsMotion (newton b.Minv (fun _ => resultant b l)) y) (hy' : IsMotion (newton b.Minv (fun _ => resultant b l)) y') (t0 t1 : ℝ) (h01 : t0 ≤ t1) (h0 : y t0 = y' t0) : y t1 = y' t1 :=
  motion_unique (resultant_regular b hcor l hreg) h01 y y' (fun t _ => hy t) (fun t _ => hy' t) h0

/-! ### The ball that is thrown and turns -/

noncomputable def thrownBall : Multi.Entry ℝ := ⟨Server.top, [Push.model Server.top (.gravity 1 10)], []⟩

theorem thrown_is_motion : IsMotion (newton thrownBall.body.Minv (fun _ => resultant thrownBall.body [.gravity 1 10])) thrown := by
  have : (fun _ => resultant thrownBall.body [.gravity 1 10]) = total Server.top [.gravity 1 10] [] := by
    funext P u w q
    simp [total, thrownBall]
  rw [this]
  exact thrown_motion

/-- The simulations of a ball thrown at 1 m/s, which turns at 2 rad/s and falls, during ten seconds, with `rk4`: the hypotheses of C198 are met, and the errors are at most a constant times the time step. -/
example : ∃ C δ, 0 < δ ∧ ∀ dt, 0 < dt → dt ≤ δ → ∀ N : Nat, (N : ℝ) * dt ≤ 10 →
    ∃ s' obs, quicksolve (simSystem (oneBody thrownBall (fun _ a b => decide (a = b)) (fun _ => false)) rk4Method.stepper) N
        ⟨thrown 0, noHistory, fun _ => none, [], 0⟩ 0 (N * dt) dt = some (.ok (s', obs)) ∧ obs.length = N + 1 ∧
      ∀ (i : Nat) (hi : i < obs.length), obs[i].t = 0 + i * dt ∧ Near (C * dt) obs[i].x (thrown obs[i].t) := by
  obtain ⟨C, δ, hδ, H⟩ := simulation_converges thrownBall ⟨rfl, by decide, fun _ => rfl⟩ (Ms := 1) top_inertial (fun _ a b => decide (a = b)) (by simp) (fun _ => false)
    [.gravity 1 10] rfl (by simp [Push.InBody]) (by simp [Push.Regular]) rfl rk4Method rk4_forward rk4_weighted thrown thrown_is_motion 0 10 (by norm_num)
    (by simp [thrown, Unit4, attitudeOf])
  refine ⟨C, δ, hδ, fun dt hdt hd N hN => H dt hdt hd N hN (N * dt) (by rw [zero_add]) (fun i hi => ?_) _ rfl (fun n => by cases n <;> rfl) (noHistory_notAfter _ _) N le_rfl _ (Or.inl rfl)⟩
  rw [zero_add]
  exact mul_lt_mul_of_pos_right (by exact_mod_cast hi) hdt

end Xdyn.Sim

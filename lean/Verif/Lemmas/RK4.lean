import Mathlib.Analysis.Asymptotics.Lemmas
import Mathlib.Analysis.Normed.Operator.BoundedLinearMaps
import Mathlib.Analysis.Calculus.MeanValue
import Mathlib.Analysis.Calculus.ContDiff.Operations
import Mathlib.Analysis.Calculus.IteratedDeriv.Defs
import Mathlib.Analysis.Calculus.ContDiff.Basic
import Mathlib.Analysis.SpecialFunctions.Exp
import Mathlib.Analysis.Calculus.Deriv.Shift
import Mathlib.Analysis.Calculus.Deriv.Pow
import Mathlib.Analysis.Normed.Module.FiniteDimension

/-! Local error of the classical Runge-Kutta method of order 4, for equations without the date. -/

namespace Xdyn.RK4

open Asymptotics Filter ContDiff

variable {E : Type*} [NormedAddCommGroup E] [NormedSpace ℝ E] {α : Type*} {l : Filter α}

/-- Powers of a bounded quantity. -/
theorem pow_isBigO {h : α → ℝ} (hh : h =O[l] fun _ => (1 : ℝ)) {m n : Nat} (hmn : m ≤ n) : (fun p => h p ^ n) =O[l] fun p => h p ^ m := by
  obtain ⟨k, rfl⟩ := Nat.exists_eq_add_of_le hmn
  have : (fun p => h p ^ k) =O[l] fun _ => (1 : ℝ) := by simpa using hh.pow k
  simpa [pow_add] using (isBigO_refl (fun p => h p ^ m) l).mul this

theorem apply_isBigO {J : α → E →L[ℝ] E} {v : α → E} {g g' : α → ℝ} (hJ : J =O[l] g) (hv : v =O[l] g') : (fun p => J p (v p)) =O[l] fun p => g p * g' p := by
  have h1 : (fun p => J p (v p)) =O[l] fun p => ‖J p‖ * ‖v p‖ :=
    IsBigO.of_bound 1 (Eventually.of_forall fun p => by simpa using (J p).le_opNorm (v p))
  exact h1.trans (hJ.norm_left.mul hv.norm_left)

theorem term_isBigO {h : α → ℝ} (hh : h =O[l] fun _ => (1 : ℝ)) {v : α → E} (hv : v =O[l] fun _ => (1 : ℝ)) (c : ℝ) {m n : Nat} (hmn : m ≤ n) :
    (fun p => (c * h p ^ n) • v p) =O[l] fun p => h p ^ m := by
  have h1 : (fun p => c * h p ^ n) =O[l] fun p => h p ^ m := (pow_isBigO hh hmn).const_mul_left c
  simpa using h1.smul hv

theorem scale_isBigO {h : α → ℝ} {v : α → E} {m : Nat} (hv : v =O[l] fun p => h p ^ m) (c : ℝ) : (fun p => (c * h p) • v p) =O[l] fun p => h p ^ (m + 1) := by
  have h1 : (fun p => c * h p) =O[l] h := (isBigO_refl h l).const_mul_left c
  have := h1.smul hv
  simpa [pow_succ, mul_comm] using this

/-- The classical method against the exact values `um` and `uu` after half a step and a step, whose derivatives are `u1m` and `u1u`. -/
theorem defect {h : α → ℝ} (hh : h =O[l] fun _ => (1 : ℝ)) (x u1 U2 U3 U4 um u1m uu u1u r0m r1m r0 r1 k2 k3 k4 : α → E) (J0 Jm J1 : α → E →L[ℝ] E)
    (hU2 : U2 =O[l] fun _ => (1 : ℝ)) (hU3 : U3 =O[l] fun _ => (1 : ℝ)) (hU4 : U4 =O[l] fun _ => (1 : ℝ))
    (hJm : Jm =O[l] fun _ => (1 : ℝ)) (hJ1 : J1 =O[l] fun _ => (1 : ℝ)) (hJ0 : J0 =O[l] fun _ => (1 : ℝ))
    (hJm0 : (fun p => Jm p - J0 p) =O[l] h) (hJ10 : (fun p => J1 p - J0 p) =O[l] h)
    (hr0m : r0m =O[l] fun p => h p ^ 5) (hr1m : r1m =O[l] fun p => h p ^ 4) (hr0 : r0 =O[l] fun p => h p ^ 5) (hr1 : r1 =O[l] fun p => h p ^ 4)
    (hum : ∀ p, um p = x p + (h p / 2) • u1 p + (h p ^ 2 / 8) • U2 p + (h p ^ 3 / 48) • U3 p + (h p ^ 4 / 384) • U4 p + r0m p)
    (hu1m : ∀ p, u1m p = u1 p + (h p / 2) • U2 p + (h p ^ 2 / 8) • U3 p + (h p ^ 3 / 48) • U4 p + r1m p)
    (huu : ∀ p, uu p = x p + h p • u1 p + (h p ^ 2 / 2) • U2 p + (h p ^ 3 / 6) • U3 p + (h p ^ 4 / 24) • U4 p + r0 p)
    (hu1u : ∀ p, u1u p = u1 p + h p • U2 p + (h p ^ 2 / 2) • U3 p + (h p ^ 3 / 6) • U4 p + r1 p)
    (he2 : (fun p => k2 p - u1m p - Jm p (x p + (h p / 2) • u1 p - um p)) =O[l] fun p => ‖x p + (h p / 2) • u1 p - um p‖ ^ 2)
    (he3 : (fun p => k3 p - u1m p - Jm p (x p + (h p / 2) • k2 p - um p)) =O[l] fun p => ‖x p + (h p / 2) • k2 p - um p‖ ^ 2)
    (he4 : (fun p => k4 p - u1u p - J1 p (x p + h p • k3 p - uu p)) =O[l] fun p => ‖x p + h p • k3 p - uu p‖ ^ 2) :
    (fun p => x p + (h p / 6) • (u1 p + (2 : ℝ) • k2 p + (2 : ℝ) • k3 p + k4 p) - uu p) =O[l] fun p => h p ^ 5 := by
  have le : ∀ {m n : Nat}, m ≤ n → (fun p => h p ^ n) =O[l] fun p => h p ^ m := fun h => pow_isBigO hh h
  have h1 : h =O[l] fun p => h p ^ 1 := by simpa using isBigO_refl h l
  set d2 : α → E := fun p => x p + (h p / 2) • u1 p - um p with hd2
  set e2 : α → E := fun p => k2 p - u1m p with he2'
  set d3 : α → E := fun p => x p + (h p / 2) • k2 p - um p with hd3
  set e3 : α → E := fun p => k3 p - u1m p with he3'
  set d4 : α → E := fun p => x p + h p • k3 p - uu p with hd4
  set e4 : α → E := fun p => k4 p - u1u p with he4'
  have hJU : (fun p => J0 p (U2 p)) =O[l] fun _ => (1 : ℝ) := by simpa using apply_isBigO hJ0 hU2
  -- second stage
  have a1 : (fun p => d2 p + (1 / 8 * h p ^ 2) • U2 p) =O[l] fun p => h p ^ 3 := by
    refine (((term_isBigO hh hU3 (-1 / 48) (le_refl 3)).add (term_isBigO hh hU4 (-1 / 384) (by norm_num : 3 ≤ 4))).sub (hr0m.trans (le (by norm_num : 3 ≤ 5)))).congr_left fun p => ?_
    simp only [hd2, hum]
    module
  have a2 : d2 =O[l] fun p => h p ^ 2 := by
    refine ((a1.trans (le (by norm_num : 2 ≤ 3))).sub (term_isBigO hh hU2 (1 / 8) (le_refl 2))).congr_left fun p => ?_
    simp
  have sq : ∀ {d : α → E} {n : Nat}, 2 ≤ n → d =O[l] (fun p => h p ^ n) → (fun p => ‖d p‖ ^ 2) =O[l] fun p => h p ^ 4 := fun {d n} hn hd => by
    have := hd.norm_left.pow 2
    refine this.trans ?_
    simp only [← pow_mul]
    exact le (by omega)
  have a3 : (fun p => e2 p - Jm p (d2 p)) =O[l] fun p => h p ^ 4 := he2.trans (sq le_rfl a2)
  have a4 : (fun p => e2 p + (1 / 8 * h p ^ 2) • J0 p (U2 p)) =O[l] fun p => h p ^ 3 := by
    have b1 : (fun p => Jm p (d2 p + (1 / 8 * h p ^ 2) • U2 p)) =O[l] fun p => h p ^ 3 := by simpa using apply_isBigO hJm a1
    have b2 : (fun p => (Jm p - J0 p) ((1 / 8 * h p ^ 2) • U2 p)) =O[l] fun p => h p ^ 3 := by
      refine (apply_isBigO hJm0 (term_isBigO hh hU2 (1 / 8) (le_refl 2))).congr_right fun p => by ring
    refine (((a3.trans (le (by norm_num : 3 ≤ 4))).add b1).sub b2).congr_left fun p => ?_
    simp only [map_add, ContinuousLinearMap.sub_apply, map_smul]
    module
  have a5 : e2 =O[l] fun p => h p ^ 2 := by
    refine ((a4.trans (le (by norm_num : 2 ≤ 3))).sub (term_isBigO hh hJU (1 / 8) (le_refl 2))).congr_left fun p => ?_
    simp
  -- third stage
  have c1 : (fun p => d2 p + d3 p - ((1 / 48 * h p ^ 3) • U3 p - (1 / 16 * h p ^ 3) • J0 p (U2 p))) =O[l] fun p => h p ^ 4 := by
    have b1 := scale_isBigO (m := 3) a4 (1 / 2)
    have b2 := scale_isBigO (m := 4) hr1m (1 / 2)
    refine (((b1.add (term_isBigO hh hU4 (1 / 192) (le_refl 4))).add (b2.trans (le (by norm_num : 4 ≤ 5)))).sub ((hr0m.const_smul_left (2 : ℝ)).trans (le (by norm_num : 4 ≤ 5)))).congr_left fun p => ?_
    have hk : k2 p = u1m p + e2 p := by simp [he2']
    simp only [hd2, hd3, hk, hum, hu1m, Pi.smul_apply]
    module
  have c2 : (fun p => d3 p - (1 / 8 * h p ^ 2) • U2 p) =O[l] fun p => h p ^ 3 := by
    refine ((((c1.trans (le (by norm_num : 3 ≤ 4))).sub a1).add (term_isBigO hh hU3 (1 / 48) (le_refl 3))).sub (term_isBigO hh hJU (1 / 16) (le_refl 3))).congr_left fun p => ?_
    module
  have c3 : d3 =O[l] fun p => h p ^ 2 := by
    refine ((c2.trans (le (by norm_num : 2 ≤ 3))).add (term_isBigO hh hU2 (1 / 8) (le_refl 2))).congr_left fun p => ?_
    simp
  have c4 : (fun p => e3 p - Jm p (d3 p)) =O[l] fun p => h p ^ 4 := he3.trans (sq le_rfl c3)
  have c5 : (fun p => e3 p - (1 / 8 * h p ^ 2) • J0 p (U2 p)) =O[l] fun p => h p ^ 3 := by
    have b1 : (fun p => Jm p (d3 p - (1 / 8 * h p ^ 2) • U2 p)) =O[l] fun p => h p ^ 3 := by simpa using apply_isBigO hJm c2
    have b2 : (fun p => (Jm p - J0 p) ((1 / 8 * h p ^ 2) • U2 p)) =O[l] fun p => h p ^ 3 := by
      refine (apply_isBigO hJm0 (term_isBigO hh hU2 (1 / 8) (le_refl 2))).congr_right fun p => by ring
    refine (((c4.trans (le (by norm_num : 3 ≤ 4))).add b1).add b2).congr_left fun p => ?_
    simp only [map_sub, ContinuousLinearMap.sub_apply, map_smul]
    module
  -- the sum of both
  set W : α → E := fun p => (1 / 48 * h p ^ 3) • U3 p - (1 / 16 * h p ^ 3) • J0 p (U2 p) with hW
  have hW3 : W =O[l] fun p => h p ^ 3 := (term_isBigO hh hU3 (1 / 48) (le_refl 3)).sub (term_isBigO hh hJU (1 / 16) (le_refl 3))
  have s1 : (fun p => e2 p + e3 p - J0 p (W p)) =O[l] fun p => h p ^ 4 := by
    have b1 : (fun p => Jm p (d2 p + d3 p - W p)) =O[l] fun p => h p ^ 4 := (apply_isBigO hJm c1).congr_right fun p => one_mul _
    have b2 : (fun p => (Jm p - J0 p) (W p)) =O[l] fun p => h p ^ 4 := (apply_isBigO hJm0 hW3).congr_right fun p => by ring
    refine (((a3.add c4).add b1).add b2).congr_left fun p => ?_
    simp only [map_sub, map_add, ContinuousLinearMap.sub_apply]
    abel
  -- fourth stage
  have f1 : (fun p => d4 p + (2 : ℝ) • W p) =O[l] fun p => h p ^ 4 := by
    have b1 := scale_isBigO (m := 3) c5 1
    have b2 := scale_isBigO (m := 4) hr1m 1
    refine (((b1.add (term_isBigO hh hU4 (-1 / 48) (le_refl 4))).add (b2.trans (le (by norm_num : 4 ≤ 5)))).sub (hr0.trans (le (by norm_num : 4 ≤ 5)))).congr_left fun p => ?_
    have hk : k3 p = u1m p + e3 p := by simp [he3']
    simp only [hd4, hk, huu, hu1m, hW]
    module
  have f2 : d4 =O[l] fun p => h p ^ 3 := by
    refine ((f1.trans (le (by norm_num : 3 ≤ 4))).sub (hW3.const_smul_left (2 : ℝ))).congr_left fun p => ?_
    simp
  have f3 : (fun p => e4 p - J1 p (d4 p)) =O[l] fun p => h p ^ 4 := he4.trans (sq (by norm_num) f2)
  have f4 : (fun p => e4 p + (2 : ℝ) • J0 p (W p)) =O[l] fun p => h p ^ 4 := by
    have b1 : (fun p => J1 p (d4 p + (2 : ℝ) • W p)) =O[l] fun p => h p ^ 4 := (apply_isBigO hJ1 f1).congr_right fun p => one_mul _
    have b2 : (fun p => (J1 p - J0 p) ((2 : ℝ) • W p)) =O[l] fun p => h p ^ 4 := (apply_isBigO hJ10 (hW3.const_smul_left (2 : ℝ))).congr_right fun p => by ring
    refine ((f3.add b1).sub b2).congr_left fun p => ?_
    simp only [map_add, ContinuousLinearMap.sub_apply, map_smul]
    module
  have tot : (fun p => (2 : ℝ) • e2 p + (2 : ℝ) • e3 p + e4 p) =O[l] fun p => h p ^ 4 := by
    refine ((s1.const_smul_left (2 : ℝ)).add f4).congr_left fun p => ?_
    simp only [Pi.smul_apply]
    module
  refine ((((scale_isBigO (m := 4) tot (1 / 6)).add (scale_isBigO (m := 4) hr1m (4 / 6))).add (scale_isBigO (m := 4) hr1 (1 / 6))).sub hr0).congr_left fun p => ?_
  have hk2 : k2 p = u1m p + e2 p := by simp [he2']
  have hk3 : k3 p = u1m p + e3 p := by simp [he3']
  have hk4 : k4 p = u1u p + e4 p := by simp [he4']
  simp only [hk2, hk3, hk4, huu, hu1u, hu1m]
  module

/-! ### One step -/

/-- One step of the classical method. -/
noncomputable def step (f : E → E) (h : ℝ) (x : E) : E :=
  x + (h / 6) • (f x + (2 : ℝ) • f (x + (h / 2) • f x) + (2 : ℝ) • f (x + (h / 2) • f (x + (h / 2) • f x)) + f (x + h • f (x + (h / 2) • f (x + (h / 2) • f x))))

theorem smooth_motion {f : E → E} (hf : ContDiff ℝ ∞ f) {u : ℝ → E} (hu : ∀ t, HasDerivAt u (f (u t)) t) : ContDiff ℝ ∞ u := by
  have hd : deriv u = fun t => f (u t) := funext fun t => (hu t).deriv
  refine contDiff_infty.mpr fun n => ?_
  induction n with
  | zero => exact contDiff_zero.mpr (continuous_iff_continuousAt.mpr fun t => (hu t).continuousAt)
  | succ n ih =>
    push_cast
    rw [contDiff_succ_iff_deriv]
    refine ⟨fun t => (hu t).differentiableAt, by simp, ?_⟩
    rw [hd]
    exact (hf.of_le (by exact_mod_cast le_top)).comp ih

theorem derivs {u : ℝ → E} (hu : ContDiff ℝ ∞ u) (k : Nat) (t : ℝ) : HasDerivAt (iteratedDeriv k u) (iteratedDeriv (k + 1) u t) t := by
  rw [iteratedDeriv_succ]
  refine DifferentiableAt.hasDerivAt ?_
  exact (hu.differentiable_iteratedDeriv k (by exact_mod_cast ENat.coe_lt_top k)) t

/-- A function whose derivative is at most `K s ^ n`. -/
theorem integrate {g g' : ℝ → E} {K : ℝ} (hK : 0 ≤ K) {n : Nat} (h0 : g 0 = 0) (hg : ∀ s, HasDerivAt g (g' s) s) (hb : ∀ s, 0 ≤ s → s ≤ 1 → ‖g' s‖ ≤ K * s ^ n) :
    ∀ s, 0 ≤ s → s ≤ 1 → ‖g s‖ ≤ K * s ^ (n + 1) := fun s hs hs1 => by
  have := norm_image_sub_le_of_norm_deriv_le_segment' (f := g) (f' := g') (C := K * s ^ n) (a := 0) (b := s) (fun x _ => (hg x).hasDerivWithinAt)
    (fun x hx => (hb x hx.1 (hx.2.le.trans hs1)).trans (mul_le_mul_of_nonneg_left (pow_le_pow_left₀ hx.1 hx.2.le n) hK)) s ⟨hs, le_rfl⟩
  rw [h0, sub_zero, sub_zero] at this
  rw [pow_succ, ← mul_assoc]
  exact this

/-- Taylor's formula, with the same constant for all the dates of an interval. -/
theorem taylor {u : ℝ → E} (hu : ContDiff ℝ ∞ u) {t K : ℝ} (hK : 0 ≤ K) (h5 : ∀ s, 0 ≤ s → s ≤ 1 → ‖iteratedDeriv 5 u (t + s)‖ ≤ K) : ∀ s, 0 ≤ s → s ≤ 1 →
    ‖iteratedDeriv 1 u (t + s) - (iteratedDeriv 1 u t + s • iteratedDeriv 2 u t + (s ^ 2 / 2) • iteratedDeriv 3 u t + (s ^ 3 / 6) • iteratedDeriv 4 u t)‖ ≤ K * s ^ 4 ∧
    ‖u (t + s) - (u t + s • iteratedDeriv 1 u t + (s ^ 2 / 2) • iteratedDeriv 2 u t + (s ^ 3 / 6) • iteratedDeriv 3 u t + (s ^ 4 / 24) • iteratedDeriv 4 u t)‖ ≤ K * s ^ 5 := by
  have hd : ∀ (k : Nat) (s : ℝ), HasDerivAt (fun s => iteratedDeriv k u (t + s)) (iteratedDeriv (k + 1) u (t + s)) s := fun k s => by
    simpa using (derivs hu k (t + s)).comp_const_add t s
  have m : ∀ (n : Nat) (c : ℝ) (v : E) (s : ℝ), HasDerivAt (fun s : ℝ => (s ^ (n + 1) / c) • v) (((n + 1 : ℝ) * s ^ n / c) • v) s := fun n c v s => by
    have := (((hasDerivAt_id s).pow (n + 1)).div_const c).smul_const v
    simpa using this
  have m1 : ∀ (v : E) (s : ℝ), HasDerivAt (fun s : ℝ => s • v) v s := fun v s => by simpa using (hasDerivAt_id s).smul_const v
  have r4 := integrate (n := 0) (g := fun s => iteratedDeriv 4 u (t + s) - iteratedDeriv 4 u t) hK (by simp) (fun s => (hd 4 s).sub_const _) (by simpa using h5)
  have r3 := integrate (g := fun s => iteratedDeriv 3 u (t + s) - (iteratedDeriv 3 u t + s • iteratedDeriv 4 u t)) hK (by simp)
    (fun s => (hd 3 s).sub ((m1 _ s).const_add _)) r4
  have r2 := integrate (g := fun s => iteratedDeriv 2 u (t + s) - (iteratedDeriv 2 u t + s • iteratedDeriv 3 u t + (s ^ 2 / 2) • iteratedDeriv 4 u t)) hK (by simp)
    (fun s => (hd 2 s).sub (((m1 _ s).const_add _).add (m 1 2 _ s))) (fun s h0 h1 => by
      have := r3 s h0 h1
      norm_num at this ⊢
      exact this)
  have r1 := integrate (g := fun s => iteratedDeriv 1 u (t + s) - (iteratedDeriv 1 u t + s • iteratedDeriv 2 u t + (s ^ 2 / 2) • iteratedDeriv 3 u t + (s ^ 3 / 6) • iteratedDeriv 4 u t)) hK (by simp)
    (fun s => (hd 1 s).sub ((((m1 _ s).const_add _).add (m 1 2 _ s)).add (m 2 6 _ s))) (fun s h0 h1 => by
      have := r2 s h0 h1
      refine le_trans (le_of_eq ?_) this
      congr 1
      module)
  have r0 := integrate (g := fun s => iteratedDeriv 0 u (t + s) - (iteratedDeriv 0 u t + s • iteratedDeriv 1 u t + (s ^ 2 / 2) • iteratedDeriv 2 u t + (s ^ 3 / 6) • iteratedDeriv 3 u t + (s ^ 4 / 24) • iteratedDeriv 4 u t)) hK (by simp)
    (fun s => (hd 0 s).sub (((((m1 _ s).const_add _).add (m 1 2 _ s)).add (m 2 6 _ s)).add (m 3 24 _ s))) (fun s h0 h1 => by
      have := r1 s h0 h1
      refine le_trans (le_of_eq ?_) this
      congr 1
      module)
  simp only [iteratedDeriv_zero] at r0
  exact fun s h0 h1 => ⟨r1 s h0 h1, r0 s h0 h1⟩

/-- On a ball: bounds of smooth equations, of their derivative and of its variations. -/
theorem bounds [FiniteDimensional ℝ E] {f : E → E} (hf : ContDiff ℝ ∞ f) (R : ℝ) : ∃ M, 0 < M ∧
    (∀ a, ‖a‖ ≤ R → ‖f a‖ ≤ M ∧ ‖fderiv ℝ f a‖ ≤ M) ∧
    (∀ a b, ‖a‖ ≤ R → ‖b‖ ≤ R → ‖f b - f a‖ ≤ M * ‖b - a‖ ∧ ‖fderiv ℝ f b - fderiv ℝ f a‖ ≤ M * ‖b - a‖ ∧ ‖f b - f a - fderiv ℝ f a (b - a)‖ ≤ M * ‖b - a‖ ^ 2) := by
  haveI : ProperSpace E := FiniteDimensional.proper ℝ E
  have hf1 : ContDiff ℝ ∞ (fderiv ℝ f) := hf.fderiv_right (m := ∞) (by simp)
  have hf2 : ContDiff ℝ ∞ (fderiv ℝ (fderiv ℝ f)) := hf1.fderiv_right (m := ∞) (by simp)
  have hB := isCompact_closedBall (0 : E) R
  obtain ⟨M0, h0⟩ := hB.exists_bound_of_continuousOn hf.continuous.continuousOn
  obtain ⟨M1, h1⟩ := hB.exists_bound_of_continuousOn hf1.continuous.continuousOn
  obtain ⟨M2, h2⟩ := hB.exists_bound_of_continuousOn hf2.continuous.continuousOn
  set M := max 1 (max M0 (max M1 M2)) with hM
  have hM0 : M0 ≤ M := (le_max_left _ _).trans (le_max_right _ _)
  have hM1 : M1 ≤ M := ((le_max_left _ _).trans (le_max_right _ _)).trans (le_max_right _ _)
  have hM2 : M2 ≤ M := ((le_max_right _ _).trans (le_max_right _ _)).trans (le_max_right _ _)
  have mem : ∀ a, ‖a‖ ≤ R → a ∈ Metric.closedBall (0 : E) R := fun a ha => by simpa using ha
  have hd1 : ∀ a b, ‖a‖ ≤ R → ‖b‖ ≤ R → ‖fderiv ℝ f b - fderiv ℝ f a‖ ≤ M * ‖b - a‖ := fun a b ha hb =>
    (convex_closedBall (0 : E) R).norm_image_sub_le_of_norm_fderiv_le (𝕜 := ℝ) (fun x _ => (hf1.differentiable (by simp)) x) (fun x hx => (h2 x hx).trans hM2) (mem a ha) (mem b hb)
  refine ⟨M, lt_of_lt_of_le one_pos (le_max_left _ _), fun a ha => ⟨(h0 a (mem a ha)).trans hM0, (h1 a (mem a ha)).trans hM1⟩, fun a b ha hb => ⟨?_, hd1 a b ha hb, ?_⟩⟩
  · exact (convex_closedBall (0 : E) R).norm_image_sub_le_of_norm_fderiv_le (𝕜 := ℝ) (fun x _ => (hf.differentiable (by simp)) x) (fun x hx => (h1 x hx).trans hM1) (mem a ha) (mem b hb)
  · have := (convex_segment a b).norm_image_sub_le_of_norm_hasFDerivWithin_le' (𝕜 := ℝ) (f := f) (f' := fderiv ℝ f) (φ := fderiv ℝ f a) (C := M * ‖b - a‖)
      (fun x _ => ((hf.differentiable (by simp)) x).hasFDerivAt.hasFDerivWithinAt) (fun x hx => ?_) (left_mem_segment ℝ a b) (right_mem_segment ℝ a b)
    · rw [sq, ← mul_assoc]
      exact this
    · have hxR : ‖x‖ ≤ R := by
        have := (convex_closedBall (0 : E) R).segment_subset (mem a ha) (mem b hb) hx
        simpa using this
      have hxa : ‖x - a‖ ≤ ‖b - a‖ := norm_sub_le_of_mem_segment hx
      exact (hd1 a x ha hxR).trans (mul_le_mul_of_nonneg_left hxa (by positivity))

theorem O {F : Type*} [NormedAddCommGroup F] {P : Set α} {v : α → F} {g : α → ℝ} (c : ℝ) (hg : ∀ p ∈ P, 0 ≤ g p) (h : ∀ p ∈ P, ‖v p‖ ≤ c * g p) : v =O[𝓟 P] g :=
  isBigO_principal.mpr ⟨c, fun p hp => by rw [Real.norm_of_nonneg (hg p hp)]; exact h p hp⟩

/-- The error made in one step from the exact motion: at most a constant times the fifth power of the time step. -/
theorem local_error [FiniteDimensional ℝ E] {f : E → E} (hf : ContDiff ℝ ∞ f) {u : ℝ → E} (hu : ∀ t, HasDerivAt u (f (u t)) t) (t0 t1 : ℝ) :
    ∃ C δ, 0 ≤ C ∧ 0 < δ ∧ ∀ t, t0 ≤ t → t ≤ t1 → ∀ h, 0 ≤ h → h ≤ δ → ‖step f h (u t) - u (t + h)‖ ≤ C * h ^ 5 := by
  have hs := smooth_motion hf hu
  have hc : ∀ k, ∃ K, ∀ t ∈ Set.Icc t0 (t1 + 1), ‖iteratedDeriv k u t‖ ≤ K := fun k =>
    isCompact_Icc.exists_bound_of_continuousOn (hs.continuous_iteratedDeriv k (by exact_mod_cast le_top)).continuousOn
  obtain ⟨R, hR⟩ := hc 0
  obtain ⟨K2, hK2⟩ := hc 2
  obtain ⟨K3, hK3⟩ := hc 3
  obtain ⟨K4, hK4⟩ := hc 4
  obtain ⟨K5', hK5'⟩ := hc 5
  set K5 := max 0 K5' with hK5def
  have hK5 : ∀ t ∈ Set.Icc t0 (t1 + 1), ‖iteratedDeriv 5 u t‖ ≤ K5 := fun t ht => (hK5' t ht).trans (le_max_right _ _)
  simp only [iteratedDeriv_zero] at hR
  have h1eq : ∀ t, iteratedDeriv 1 u t = f (u t) := fun t => by rw [iteratedDeriv_one]; exact (hu t).deriv
  obtain ⟨M, hM, hb, hl⟩ := bounds hf (R + 1)
  set δ := min 1 (1 / M) with hδ
  have hδ0 : 0 < δ := lt_min one_pos (by positivity)
  set P : Set (ℝ × ℝ) := {p | t0 ≤ p.1 ∧ p.1 ≤ t1 ∧ 0 ≤ p.2 ∧ p.2 ≤ δ} with hP
  have hp1 : ∀ p ∈ P, p.2 ≤ 1 := fun p hp => hp.2.2.2.trans (min_le_left _ _)
  have hpM : ∀ p ∈ P, p.2 * M ≤ 1 := fun p hp => by
    have : p.2 ≤ 1 / M := hp.2.2.2.trans (min_le_right _ _)
    rwa [le_div_iff₀ hM] at this
  -- the exact values are in the ball, and so are the stages
  have in0 : ∀ p ∈ P, ∀ s, 0 ≤ s → s ≤ 1 → p.1 + s ∈ Set.Icc t0 (t1 + 1) := fun p hp s h0 h1 => ⟨by linarith [hp.1], by linarith [hp.2.1]⟩
  have in1 : ∀ p ∈ P, ∀ s, 0 ≤ s → s ≤ 1 → ‖u (p.1 + s)‖ ≤ R + 1 := fun p hp s h0 h1 => (hR _ (in0 p hp s h0 h1)).trans (by linarith)
  have inx : ∀ p ∈ P, ‖u p.1‖ ≤ R := fun p hp => by simpa using hR _ (in0 p hp 0 le_rfl zero_le_one)
  have move : ∀ p ∈ P, ∀ v, ‖v‖ ≤ R + 1 → ∀ c, 0 ≤ c → c ≤ p.2 → ‖u p.1 + c • f v‖ ≤ R + 1 := fun p hp v hv c h0 h1 => by
    refine (norm_add_le _ _).trans ?_
    rw [norm_smul, Real.norm_of_nonneg h0]
    have : c * ‖f v‖ ≤ 1 := (mul_le_mul h1 (hb v hv).1 (norm_nonneg _) hp.2.2.1).trans (hpM p hp)
    linarith [inx p hp]
  set k2 : ℝ × ℝ → E := fun p => f (u p.1 + (p.2 / 2) • f (u p.1)) with hk2
  set k3 : ℝ × ℝ → E := fun p => f (u p.1 + (p.2 / 2) • k2 p) with hk3
  set k4 : ℝ × ℝ → E := fun p => f (u p.1 + p.2 • k3 p) with hk4
  have iny2 : ∀ p ∈ P, ‖u p.1 + (p.2 / 2) • f (u p.1)‖ ≤ R + 1 := fun p hp => move p hp _ (by linarith [inx p hp]) _ (by linarith [hp.2.2.1]) (by linarith [hp.2.2.1])
  have iny3 : ∀ p ∈ P, ‖u p.1 + (p.2 / 2) • k2 p‖ ≤ R + 1 := fun p hp => move p hp _ (iny2 p hp) _ (by linarith [hp.2.2.1]) (by linarith [hp.2.2.1])
  have iny4 : ∀ p ∈ P, ‖u p.1 + p.2 • k3 p‖ ≤ R + 1 := fun p hp => move p hp _ (iny3 p hp) _ hp.2.2.1 le_rfl
  have inm : ∀ p ∈ P, ‖u (p.1 + p.2 / 2)‖ ≤ R + 1 := fun p hp => in1 p hp _ (by linarith [hp.2.2.1]) (by linarith [hp.2.2.1, hp1 p hp])
  have ine : ∀ p ∈ P, ‖u (p.1 + p.2)‖ ≤ R + 1 := fun p hp => in1 p hp _ hp.2.2.1 (hp1 p hp)
  have ix : ∀ p ∈ P, ‖u p.1‖ ≤ R + 1 := fun p hp => by linarith [inx p hp]
  have speed : ∀ p ∈ P, ∀ s, 0 ≤ s → s ≤ p.2 → ‖u (p.1 + s) - u p.1‖ ≤ M * s := fun p hp s h0 h1 => by
    have := norm_image_sub_le_of_norm_deriv_le_segment' (f := fun s => u (p.1 + s)) (f' := fun s => f (u (p.1 + s))) (C := M) (a := 0) (b := s)
      (fun x _ => ((hu (p.1 + x)).comp_const_add p.1 x).hasDerivWithinAt)
      (fun x hx => (hb _ (in1 p hp x hx.1 (by linarith [hx.2, hp1 p hp]))).1) s ⟨h0, le_rfl⟩
    simpa using this
  have h0 : ∀ p ∈ P, 0 ≤ p.2 := fun p hp => hp.2.2.1
  have T := fun p (hp : p ∈ P) => taylor hs (t := p.1) (le_max_left 0 K5') (fun s a b => hK5 _ (in0 p hp s a b))
  have half : ∀ p ∈ P, 0 ≤ p.2 / 2 ∧ p.2 / 2 ≤ 1 := fun p hp => ⟨by linarith [h0 p hp], by linarith [h0 p hp, hp1 p hp]⟩
  have key := defect (l := 𝓟 P) (h := fun p => p.2) (O 1 (fun _ _ => zero_le_one) (fun p hp => by rw [Real.norm_of_nonneg (h0 p hp)]; linarith [hp1 p hp]))
    (fun p => u p.1) (fun p => f (u p.1)) (fun p => iteratedDeriv 2 u p.1) (fun p => iteratedDeriv 3 u p.1) (fun p => iteratedDeriv 4 u p.1)
    (fun p => u (p.1 + p.2 / 2)) (fun p => f (u (p.1 + p.2 / 2))) (fun p => u (p.1 + p.2)) (fun p => f (u (p.1 + p.2)))
    (fun p => u (p.1 + p.2 / 2) - (u p.1 + (p.2 / 2) • iteratedDeriv 1 u p.1 + ((p.2 / 2) ^ 2 / 2) • iteratedDeriv 2 u p.1 + ((p.2 / 2) ^ 3 / 6) • iteratedDeriv 3 u p.1 + ((p.2 / 2) ^ 4 / 24) • iteratedDeriv 4 u p.1))
    (fun p => iteratedDeriv 1 u (p.1 + p.2 / 2) - (iteratedDeriv 1 u p.1 + (p.2 / 2) • iteratedDeriv 2 u p.1 + ((p.2 / 2) ^ 2 / 2) • iteratedDeriv 3 u p.1 + ((p.2 / 2) ^ 3 / 6) • iteratedDeriv 4 u p.1))
    (fun p => u (p.1 + p.2) - (u p.1 + p.2 • iteratedDeriv 1 u p.1 + (p.2 ^ 2 / 2) • iteratedDeriv 2 u p.1 + (p.2 ^ 3 / 6) • iteratedDeriv 3 u p.1 + (p.2 ^ 4 / 24) • iteratedDeriv 4 u p.1))
    (fun p => iteratedDeriv 1 u (p.1 + p.2) - (iteratedDeriv 1 u p.1 + p.2 • iteratedDeriv 2 u p.1 + (p.2 ^ 2 / 2) • iteratedDeriv 3 u p.1 + (p.2 ^ 3 / 6) • iteratedDeriv 4 u p.1))
    k2 k3 k4 (fun p => fderiv ℝ f (u p.1)) (fun p => fderiv ℝ f (u (p.1 + p.2 / 2))) (fun p => fderiv ℝ f (u (p.1 + p.2)))
    (O K2 (fun _ _ => zero_le_one) fun p hp => by simpa using hK2 _ (in0 p hp 0 le_rfl zero_le_one))
    (O K3 (fun _ _ => zero_le_one) fun p hp => by simpa using hK3 _ (in0 p hp 0 le_rfl zero_le_one))
    (O K4 (fun _ _ => zero_le_one) fun p hp => by simpa using hK4 _ (in0 p hp 0 le_rfl zero_le_one))
    (O M (fun _ _ => zero_le_one) fun p hp => by simpa using (hb _ (inm p hp)).2)
    (O M (fun _ _ => zero_le_one) fun p hp => by simpa using (hb _ (ine p hp)).2)
    (O M (fun _ _ => zero_le_one) fun p hp => by simpa using (hb _ (ix p hp)).2)
    (O (M * M) h0 fun p hp => by
      refine ((hl _ _ (ix p hp) (inm p hp)).2.1.trans (mul_le_mul_of_nonneg_left (speed p hp (p.2 / 2) (half p hp).1 (by linarith [h0 p hp])) hM.le)).trans ?_
      have := mul_nonneg (mul_nonneg hM.le hM.le) (h0 p hp)
      nlinarith)
    (O (M * M) h0 fun p hp => by
      refine ((hl _ _ (ix p hp) (ine p hp)).2.1.trans (mul_le_mul_of_nonneg_left (speed p hp p.2 (h0 p hp) le_rfl) hM.le)).trans ?_
      rw [mul_assoc])
    (O K5 (fun p hp => pow_nonneg (h0 p hp) 5) fun p hp => ((T p hp _ (half p hp).1 (half p hp).2).2).trans
      (mul_le_mul_of_nonneg_left (pow_le_pow_left₀ (half p hp).1 (by linarith [h0 p hp]) 5) (le_max_left _ _)))
    (O K5 (fun p hp => pow_nonneg (h0 p hp) 4) fun p hp => ((T p hp _ (half p hp).1 (half p hp).2).1).trans
      (mul_le_mul_of_nonneg_left (pow_le_pow_left₀ (half p hp).1 (by linarith [h0 p hp]) 4) (le_max_left _ _)))
    (O K5 (fun p hp => pow_nonneg (h0 p hp) 5) fun p hp => (T p hp _ (h0 p hp) (hp1 p hp)).2)
    (O K5 (fun p hp => pow_nonneg (h0 p hp) 4) fun p hp => (T p hp _ (h0 p hp) (hp1 p hp)).1)
    (fun p => by rw [h1eq]; module) (fun p => by rw [h1eq, h1eq]; module) (fun p => by rw [h1eq]; module) (fun p => by rw [h1eq, h1eq]; module)
    (O M (fun _ _ => sq_nonneg _) fun p hp => (hl _ _ (inm p hp) (iny2 p hp)).2.2)
    (O M (fun _ _ => sq_nonneg _) fun p hp => (hl _ _ (inm p hp) (iny3 p hp)).2.2)
    (O M (fun _ _ => sq_nonneg _) fun p hp => (hl _ _ (ine p hp) (iny4 p hp)).2.2)
  obtain ⟨C, hC⟩ := isBigO_principal.mp key
  refine ⟨max 0 C, δ, le_max_left _ _, hδ0, fun t ht0 ht1 h hh0 hh1 => ?_⟩
  have := hC (t, h) ⟨ht0, ht1, hh0, hh1⟩
  dsimp only at this
  rw [Real.norm_of_nonneg (pow_nonneg hh0 5)] at this
  exact this.trans (mul_le_mul_of_nonneg_right (le_max_right _ _) (pow_nonneg hh0 5))

/-- Two steps from close states. -/
theorem stable {f : E → E} {M R h : ℝ} (hM : 0 < M) (hb : ∀ a, ‖a‖ ≤ R + 1 → ‖f a‖ ≤ M) (hl : ∀ a b, ‖a‖ ≤ R + 1 → ‖b‖ ≤ R + 1 → ‖f b - f a‖ ≤ M * ‖b - a‖)
    (h0 : 0 ≤ h) (h1 : h * M ≤ 1) {x y : E} (hx : ‖x‖ ≤ R) (hy : ‖y‖ ≤ R) : ‖step f h y - step f h x‖ ≤ (1 + 2 * M * h) * ‖y - x‖ := by
  set d := ‖y - x‖ with hd
  have hd0 : 0 ≤ d := norm_nonneg _
  have move : ∀ z, ‖z‖ ≤ R → ∀ v, ‖v‖ ≤ R + 1 → ∀ c, 0 ≤ c → c ≤ h → ‖z + c • f v‖ ≤ R + 1 := fun z hz v hv c hc hc' => by
    refine (norm_add_le _ _).trans ?_
    rw [norm_smul, Real.norm_of_nonneg hc]
    have : c * ‖f v‖ ≤ 1 := (mul_le_mul hc' (hb v hv) (norm_nonneg _) h0).trans h1
    linarith
  have far : ∀ (v w : E) (c e : ℝ), 0 ≤ c → c ≤ h → ‖v‖ ≤ R + 1 → ‖w‖ ≤ R + 1 → ‖w - v‖ ≤ e → ‖(y + c • f w) - (x + c • f v)‖ ≤ d + c * M * e := fun v w c e hc hc' hv hw he => by
    have : (y + c • f w) - (x + c • f v) = (y - x) + c • (f w - f v) := by module
    rw [this]
    refine (norm_add_le _ _).trans (add_le_add le_rfl ?_)
    rw [norm_smul, Real.norm_of_nonneg hc, mul_assoc]
    exact mul_le_mul_of_nonneg_left ((hl v w hv hw).trans (mul_le_mul_of_nonneg_left he hM.le)) hc
  have hx' : ‖x‖ ≤ R + 1 := by linarith
  have hy' : ‖y‖ ≤ R + 1 := by linarith
  have hh : 0 ≤ h / 2 := by linarith
  have hh' : h / 2 ≤ h := by linarith
  have x2 := move x hx x hx' _ hh hh'
  have y2 := move y hy y hy' _ hh hh'
  have x3 := move x hx _ x2 _ hh hh'
  have y3 := move y hy _ y2 _ hh hh'
  have x4 := move x hx _ x3 _ h0 le_rfl
  have y4 := move y hy _ y3 _ h0 le_rfl
  have hMh : 0 ≤ h * M := by positivity
  have d2 := (far x y _ d hh hh' hx' hy' le_rfl).trans (show d + h / 2 * M * d ≤ 3 / 2 * d by nlinarith)
  have d3 := (far _ _ _ _ hh hh' x2 y2 d2).trans (show d + h / 2 * M * (3 / 2 * d) ≤ 7 / 4 * d by nlinarith)
  have d4 := (far _ _ _ _ h0 le_rfl x3 y3 d3).trans (show d + h * M * (7 / 4 * d) ≤ 11 / 4 * d by nlinarith)
  have k1 := hl x y hx' hy'
  have k2 := (hl _ _ x2 y2).trans (mul_le_mul_of_nonneg_left d2 hM.le)
  have k3 := (hl _ _ x3 y3).trans (mul_le_mul_of_nonneg_left d3 hM.le)
  have k4 := (hl _ _ x4 y4).trans (mul_le_mul_of_nonneg_left d4 hM.le)
  unfold step
  generalize f (x + h • f (x + (h / 2) • f (x + (h / 2) • f x))) = A4 at *
  generalize f (y + h • f (y + (h / 2) • f (y + (h / 2) • f y))) = B4 at *
  generalize f (x + (h / 2) • f (x + (h / 2) • f x)) = A3 at *
  generalize f (y + (h / 2) • f (y + (h / 2) • f y)) = B3 at *
  generalize f (x + (h / 2) • f x) = A2 at *
  generalize f (y + (h / 2) • f y) = B2 at *
  generalize f x = A1 at *
  generalize f y = B1 at *
  have e : y + (h / 6) • (B1 + (2 : ℝ) • B2 + (2 : ℝ) • B3 + B4) - (x + (h / 6) • (A1 + (2 : ℝ) • A2 + (2 : ℝ) • A3 + A4)) =
      (y - x) + (h / 6) • ((B1 - A1) + (2 : ℝ) • (B2 - A2) + (2 : ℝ) • (B3 - A3) + (B4 - A4)) := by module
  rw [e]
  have h4 : ‖(B1 - A1) + (2 : ℝ) • (B2 - A2) + (2 : ℝ) • (B3 - A3) + (B4 - A4)‖ ≤ M * d + 2 * (M * (3 / 2 * d)) + 2 * (M * (7 / 4 * d)) + M * (11 / 4 * d) := by
    refine (norm_add_le _ _).trans (add_le_add ((norm_add_le _ _).trans (add_le_add ((norm_add_le _ _).trans (add_le_add k1 ?_)) ?_)) k4)
    · rw [norm_smul]
      simpa using k2
    · rw [norm_smul]
      simpa using k3
  refine (norm_add_le _ _).trans ?_
  rw [norm_smul, Real.norm_of_nonneg (by linarith : (0 : ℝ) ≤ h / 6)]
  have := mul_le_mul_of_nonneg_left h4 (by linarith : (0 : ℝ) ≤ h / 6)
  have hp : 0 ≤ M * d * h := by positivity
  nlinarith

/-- The states computed by the classical method with smooth equations are at most a constant times the fourth power of the time step away from the exact ones. -/
theorem global_error [FiniteDimensional ℝ E] {f : E → E} (hf : ContDiff ℝ ∞ f) {u : ℝ → E} (hu : ∀ t, HasDerivAt u (f (u t)) t) (t0 : ℝ) {D : ℝ} (hD : 0 ≤ D) :
    ∃ C δ, 0 ≤ C ∧ 0 < δ ∧ ∀ h, 0 ≤ h → h ≤ δ → ∀ j : Nat, j * h ≤ D → ‖(step f h)^[j] (u t0) - u (t0 + j * h)‖ ≤ C * h ^ 4 := by
  have hs := smooth_motion hf hu
  obtain ⟨C, δ, hC, hδ, H⟩ := local_error hf hu t0 (t0 + D)
  obtain ⟨R, hR⟩ := isCompact_Icc.exists_bound_of_continuousOn (s := Set.Icc t0 (t0 + D)) hs.continuous.continuousOn
  obtain ⟨M, hM, hb, hl⟩ := bounds hf (R + 1 + 1)
  set A := Real.exp (2 * M * D) * D * C with hA
  have hA0 : 0 ≤ A := by positivity
  set δ' := min δ (min (1 / M) (min 1 (1 / (A + 1)))) with hδ'
  refine ⟨A, δ', hA0, by positivity, fun h h0 hh => ?_⟩
  have hhδ : h ≤ δ := hh.trans (min_le_left _ _)
  have hhM : h * M ≤ 1 := by
    have : h ≤ 1 / M := hh.trans ((min_le_right _ _).trans (min_le_left _ _))
    rwa [le_div_iff₀ hM] at this
  have hh1 : h ≤ 1 := hh.trans ((min_le_right _ _).trans ((min_le_right _ _).trans (min_le_left _ _)))
  have hhA : A * h ^ 4 ≤ 1 := by
    have h2 : h ≤ 1 / (A + 1) := hh.trans ((min_le_right _ _).trans ((min_le_right _ _).trans (min_le_right _ _)))
    rw [le_div_iff₀ (by linarith)] at h2
    have h3 : h ^ 4 ≤ h := by
      have := pow_le_of_le_one h0 hh1 (by norm_num : (4 : ℕ) ≠ 0)
      exact this
    nlinarith
  have fine : ∀ j : Nat, j * h ≤ D → (1 + 2 * M * h) ^ j * (j * (C * h ^ 5)) ≤ A * h ^ 4 := fun j hj => by
    have e1 : (1 + 2 * M * h) ^ j ≤ Real.exp (2 * M * D) := by
      have : 1 + 2 * M * h ≤ Real.exp (2 * M * h) := by linarith [Real.add_one_le_exp (2 * M * h)]
      refine (pow_le_pow_left₀ (by positivity) this j).trans ?_
      rw [← Real.exp_nat_mul]
      exact Real.exp_le_exp.mpr (by nlinarith)
    have e2 : (j : ℝ) * (C * h ^ 5) ≤ D * (C * h ^ 4) := by
      have : (j : ℝ) * (C * h ^ 5) = (j * h) * (C * h ^ 4) := by ring
      rw [this]
      exact mul_le_mul_of_nonneg_right hj (by positivity)
    calc (1 + 2 * M * h) ^ j * (j * (C * h ^ 5)) ≤ Real.exp (2 * M * D) * (D * (C * h ^ 4)) := mul_le_mul e1 e2 (by positivity) (by positivity)
      _ = A * h ^ 4 := by rw [hA]; ring
  have main : ∀ j : Nat, j * h ≤ D → ‖(step f h)^[j] (u t0) - u (t0 + j * h)‖ ≤ (1 + 2 * M * h) ^ j * (j * (C * h ^ 5)) := by
    intro j
    induction j with
    | zero => intro _; simp
    | succ j ih =>
      intro hj
      push_cast at hj
      have hj' : (j : ℝ) * h ≤ D := by nlinarith
      have hi := ih hj'
      have hin : t0 + j * h ∈ Set.Icc t0 (t0 + D) := ⟨by nlinarith [mul_nonneg (Nat.cast_nonneg (α := ℝ) j) h0], by linarith⟩
      have hy : ‖u (t0 + j * h)‖ ≤ R := hR _ hin
      have hx : ‖(step f h)^[j] (u t0)‖ ≤ R + 1 := by
        have h1 := hi.trans ((fine j hj').trans hhA)
        have h2 := norm_le_norm_add_norm_sub' ((step f h)^[j] (u t0)) (u (t0 + j * h))
        linarith
      have st := stable hM (fun a ha => (hb a ha).1) (fun a b ha hb => (hl a b ha hb).1) h0 hhM (by linarith : ‖u (t0 + j * h)‖ ≤ R + 1) hx
      have lo := H _ hin.1 hin.2 h h0 hhδ
      rw [Function.iterate_succ_apply']
      have e : t0 + ((j + 1 : Nat) : ℝ) * h = t0 + j * h + h := by push_cast; ring
      rw [e]
      generalize (step f h)^[j] (u t0) = x at *
      have g1 : 1 ≤ (1 + 2 * M * h) ^ (j + 1) := one_le_pow₀ (by nlinarith [mul_nonneg hM.le h0])
      have g2 : 0 ≤ C * h ^ 5 := by positivity
      have g3 : 0 ≤ 1 + 2 * M * h := by positivity
      calc ‖step f h x - u (t0 + j * h + h)‖ ≤ ‖step f h x - step f h (u (t0 + j * h))‖ + ‖step f h (u (t0 + j * h)) - u (t0 + j * h + h)‖ := norm_sub_le_norm_sub_add_norm_sub _ _ _
        _ ≤ (1 + 2 * M * h) * ((1 + 2 * M * h) ^ j * (j * (C * h ^ 5))) + C * h ^ 5 := add_le_add (st.trans (mul_le_mul_of_nonneg_left hi g3)) lo
        _ ≤ (1 + 2 * M * h) ^ (j + 1) * ((j + 1 : Nat) * (C * h ^ 5)) := by
          push_cast
          rw [pow_succ (1 + 2 * M * h) j] at g1 ⊢
          have g4 := mul_le_mul_of_nonneg_right g1 g2
          generalize (1 + 2 * M * h) ^ j = X at *
          generalize C * h ^ 5 = Y at *
          generalize 1 + 2 * M * h = a at *
          linarith
  exact fun j hj => (main j hj).trans (fine j hj)

end Xdyn.RK4

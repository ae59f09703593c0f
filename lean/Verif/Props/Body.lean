import Verif.Lemmas.Body
import Verif.Props.BlockedDof
import Mathlib.Analysis.Calculus.Deriv.Mul
import Mathlib.Analysis.Calculus.Deriv.Add
import Mathlib.Tactic.NormNum
import Mathlib.Tactic.Positivity

/-! Properties C23, C26, C28, C29, C30, C31 and C72: dynamics of a body. -/

namespace Xdyn.Body

open Spec Blocked

variable {K : Type} [Field K] [LinearOrder K] [IsStrictOrderedRing K]

/-- Derivatives of (u, v, w, p, q, r) of body `idx` in a vector of state derivatives. -/
def IsAcceleration (dx : List K) (idx : Nat) (a : Vec6 K) : Prop :=
  ∀ i : Fin 6, dx[13 * idx + 3 + i]? = some (a i)

theorem stateDerivatives_ok {b : BlockedDof K} {Minv : Mat6 K} {F : Vec6 K} {R : Mat3 K} {x dx dx' : List K}
    {t : K} {idx : Nat} (h : stateDerivatives b Minv F R x dx t idx = .ok dx') :
    ∃ dx1, unforcedDerivatives Minv F R x dx idx = .ok dx1 ∧ forceStateDerivatives b dx1 t = .ok dx' := by
  unfold stateDerivatives at h
  simp only [bind, Except.bind] at h
  cases h1 : unforcedDerivatives Minv F R x dx idx with
  | error e => simp [h1] at h
  | ok dx1 => exact ⟨dx1, rfl, by simpa [h1] using h⟩

theorem forceStateDerivatives_inactive {b : BlockedDof K} {t : K} {dx dx' : List K}
    (hinact : ∀ s i, ¬ Active b t s i) (h : forceStateDerivatives b dx t = .ok dx') : dx' = dx := by
  obtain ⟨a1, -, a3⟩ := foldlM_force_ok allStates dx dx' (by decide) h
  apply List.ext_getElem? 
  intro k
  exact a3 k (fun s _ ⟨i, hi⟩ => absurd hi (hinact s i))

/-- **C23** The accelerations computed for a body (with its blocked degrees of freedom) and the
reported blocking wrench `dF` close the equations of motion, `M a = F + dF`, for every wrench
`F`, every state and every set of blocked degrees of freedom; `dF` is zero at every date at
which no degree of freedom is blocked. -/
theorem blocking_wrench_closes_equations (b : BlockedDof K) (M Minv : Mat6 K) (hM : M * Minv = 1)
    (F : Vec6 K) (R : Mat3 K) (x dx : List K) (t : K) (idx : Nat) (hidx : b.bodyIdx = idx)
    (hx : 13 * (idx + 1) ≤ x.length) (hdx : 13 * (idx + 1) ≤ dx.length) (dx' : List K)
    (h : stateDerivatives b Minv F R x dx t idx = .ok dx') :
    ∃ a dF, IsAcceleration dx' idx a ∧ getDeltaF b dx' M F = .ok dF ∧ M.mulVec a = F + dF ∧
      ((∀ s i, ¬ Active b t s i) → dF = 0) := by
  obtain ⟨dx1, h1, h2⟩ := stateDerivatives_ok h
  obtain ⟨st, dx1', h1', -, hl1, -, -, hacc, -⟩ := unforced_ok Minv F R x dx idx hx hdx
  rw [h1] at h1'
  simp only [Except.ok.injEq] at h1'
  subst h1'
  have hlen : dx'.length = dx.length := ((foldlM_force_ok allStates dx1 dx' (by decide) h2).1).trans hl1
  have hMF : M.mulVec (Minv.mulVec F) = F := by rw [Matrix.mulVec_mulVec, hM, Matrix.one_mulVec]
  by_cases hall : allStates.all (fun s => (b.dof s).isNone) = true
  · have hinact : ∀ s i, ¬ Active b t s i := by
      intro s i hi
      have hs : s ∈ allStates := by cases s <;> decide
      have := List.all_eq_true.1 hall s hs
      simp [hi.1] at this
    have he := forceStateDerivatives_inactive hinact h2
    subst he
    refine ⟨Minv.mulVec F, 0, hacc, ?_, by simp [hMF], fun _ => rfl⟩
    simp only [getDeltaF, hall, if_true]
    rfl
  · have hlt : ∀ j, j < 13 → idx * 13 + j < dx'.length := by intro j hj; omega
    obtain ⟨a, ha⟩ : ∃ a : Vec6 K, a = ![dx'[idx * 13 + 3]'(hlt 3 (by omega)), dx'[idx * 13 + 4]'(hlt 4 (by omega)),
      dx'[idx * 13 + 5]'(hlt 5 (by omega)), dx'[idx * 13 + 6]'(hlt 6 (by omega)),
      dx'[idx * 13 + 7]'(hlt 7 (by omega)), dx'[idx * 13 + 8]'(hlt 8 (by omega))] := ⟨_, rfl⟩
    have hacc' : IsAcceleration dx' idx a := by
      intro i
      rw [Nat.mul_comm 13, ha]
      fin_cases i <;> simp only [Nat.add_assoc] <;> exact List.getElem?_eq_getElem _
    refine ⟨a, M.mulVec a - F, hacc', ?_, ?_, ?_⟩
    · simp only [getDeltaF, hall, hidx, UIDX, VIDX, WIDX, PIDX, QIDX, RIDX, nbOfStatesPerBody,
        getAt_of_lt (hlt 3 (by omega)), getAt_of_lt (hlt 4 (by omega)), getAt_of_lt (hlt 5 (by omega)),
        getAt_of_lt (hlt 6 (by omega)), getAt_of_lt (hlt 7 (by omega)), getAt_of_lt (hlt 8 (by omega)),
        bind, Except.bind, pure, Except.pure]
      rw [ha]
      rfl
    · abel
    · intro hinact
      have he := forceStateDerivatives_inactive hinact h2
      subst he
      have hv : a = Minv.mulVec F := by
        funext i
        have h1 := hacc i
        have h2 := hacc' i
        rw [h1] at h2
        simpa using h2.symm
      rw [hv, hMF, sub_self]

/-- Squared norm of a quaternion. -/
def Quat.normSq (q : Quat K) : K := q.w ^ 2 + q.x ^ 2 + q.y ^ 2 + q.z ^ 2

/-- **C26** (attitude) The rotation matrix built from a unit quaternion is orthogonal and has
determinant 1. -/
theorem rotation_matrix_orthogonal (q : Quat K) (hq : q.w ^ 2 + q.x ^ 2 + q.y ^ 2 + q.z ^ 2 = 1) :
    q.matrix * q.matrix.transpose = 1 ∧ q.matrix.transpose * q.matrix = 1 ∧ q.matrix.det = 1 := by
  have hw : q.w ^ 2 = 1 - q.x ^ 2 - q.y ^ 2 - q.z ^ 2 := by linear_combination hq
  refine ⟨?_, ?_, ?_⟩
  · ext i j
    fin_cases i <;> fin_cases j <;>
      simp [Quat.matrix, Matrix.mul_apply, Fin.sum_univ_three, Matrix.one_apply] <;> ring_nf <;>
      simp only [hw] <;> ring
  · ext i j
    fin_cases i <;> fin_cases j <;>
      simp [Quat.matrix, Matrix.mul_apply, Fin.sum_univ_three, Matrix.one_apply] <;> ring_nf <;>
      simp only [hw] <;> ring
  · have h4 : q.w ^ 4 = (1 - q.x ^ 2 - q.y ^ 2 - q.z ^ 2) ^ 2 := by rw [← hw]; ring
    rw [Matrix.det_fin_three]
    simp [Quat.matrix]
    ring_nf
    simp only [hw]
    ring

/-- **C26** (kinematics) For every body, the derivative of the quaternion written in the
vector of state derivatives is orthogonal to the quaternion: its norm is constant along the
exact trajectories. -/
theorem quaternion_derivative_orthogonal (Minv : Mat6 K) (F : Vec6 K) (R : Mat3 K) (x dx dx' : List K)
    (idx : Nat) (hx : 13 * (idx + 1) ≤ x.length) (hdx : 13 * (idx + 1) ≤ dx.length)
    (h : unforcedDerivatives Minv F R x dx idx = .ok dx') :
    ∃ q dq : Quat K, quatOf x idx = .ok q ∧ quatOf dx' idx = .ok dq ∧
      q.w * dq.w + q.x * dq.x + q.y * dq.y + q.z * dq.z = 0 := by
  obtain ⟨st, dx1, h1, hst, hl1, -, -, -, e1, e2, e3, e4⟩ := unforced_ok Minv F R x dx idx hx hdx
  rw [h] at h1
  simp only [Except.ok.injEq] at h1
  subst h1
  have s1 : ∀ s : StateName, slot idx s = idx * 13 + s.rank := by intro s; simp [slot, Nat.mul_comm]
  have g1 := hst .qr; have g2 := hst .qi; have g3 := hst .qj; have g4 := hst .qk
  rw [s1] at g1 g2 g3 g4 e1 e2 e3 e4
  simp only [StateName.rank, field] at g1 g2 g3 g4 e1 e2 e3 e4
  refine ⟨⟨st.qr, st.qi, st.qj, st.qk⟩,
    ⟨1 / 2 * (Quat.mul ⟨st.qr, st.qi, st.qj, st.qk⟩ ⟨0, st.p, st.q, st.r⟩).w,
     1 / 2 * (Quat.mul ⟨st.qr, st.qi, st.qj, st.qk⟩ ⟨0, st.p, st.q, st.r⟩).x,
     1 / 2 * (Quat.mul ⟨st.qr, st.qi, st.qj, st.qk⟩ ⟨0, st.p, st.q, st.r⟩).y,
     1 / 2 * (Quat.mul ⟨st.qr, st.qi, st.qj, st.qk⟩ ⟨0, st.p, st.q, st.r⟩).z⟩, ?_, ?_, ?_⟩
  · simp [quatOf, getUB, QRIDX, QIIDX, QJIDX, QKIDX, nbOfStatesPerBody, g1, g2, g3, g4, bind, Except.bind,
      pure, Except.pure]
  · simp only [quatOf, getUB, QRIDX, QIIDX, QJIDX, QKIDX, nbOfStatesPerBody, e1, e2, e3, e4, bind, Except.bind,
      pure, Except.pure]
  · simp only [Quat.mul]
    ring

/-- Matrix of the cross product by `w`. -/
def skew (w : Vec3 K) : Mat3 K := !![0, -w 2, w 1; w 2, 0, -w 0; -w 1, w 0, 0]

/-- **C72** The quaternion kinematics are the ones of the angular velocity (p, q, r) expressed
in the body frame: along any curve of unit quaternions whose derivative is the one computed by
`Body::calculate_state_derivatives`, the rotation matrix `R` from NED to body satisfies
`dR/dt = R [pqr]x`. -/
theorem quaternion_kinematics (w x y z : ℝ → ℝ) (p q r t : ℝ)
    (hu : w t ^ 2 + x t ^ 2 + y t ^ 2 + z t ^ 2 = 1)
    (hw : HasDerivAt w (1 / 2 * (Quat.mul ⟨w t, x t, y t, z t⟩ ⟨0, p, q, r⟩).w) t)
    (hx : HasDerivAt x (1 / 2 * (Quat.mul ⟨w t, x t, y t, z t⟩ ⟨0, p, q, r⟩).x) t)
    (hy : HasDerivAt y (1 / 2 * (Quat.mul ⟨w t, x t, y t, z t⟩ ⟨0, p, q, r⟩).y) t)
    (hz : HasDerivAt z (1 / 2 * (Quat.mul ⟨w t, x t, y t, z t⟩ ⟨0, p, q, r⟩).z) t) (i j : Fin 3) :
    HasDerivAt (fun t => Quat.matrix ⟨w t, x t, y t, z t⟩ i j)
      ((Quat.matrix ⟨w t, x t, y t, z t⟩ * skew ![p, q, r]) i j) t := by
  have hw2 : w t ^ 2 = 1 - x t ^ 2 - y t ^ 2 - z t ^ 2 := by linear_combination hu
  have two : ∀ (f g : ℝ → ℝ) (f' g' : ℝ), HasDerivAt f f' t → HasDerivAt g g' t →
      HasDerivAt (fun t => 2 * f t * g t) (2 * f' * g t + 2 * f t * g') t := by
    intro f g f' g' hf hg
    exact (hf.const_mul 2).mul hg
  fin_cases i <;> fin_cases j
  · refine ((hasDerivAt_const t (1 : ℝ)).sub ((two y y _ _ hy hy).add (two z z _ _ hz hz))).congr_deriv ?_
    simp [Quat.matrix, skew, Matrix.mul_apply, Fin.sum_univ_three, Quat.mul]; ring
  · refine ((two y x _ _ hy hx).sub (two z w _ _ hz hw)).congr_deriv ?_
    simp [Quat.matrix, skew, Matrix.mul_apply, Fin.sum_univ_three, Quat.mul]
    linear_combination (-r) * hu
  · refine ((two z x _ _ hz hx).add (two y w _ _ hy hw)).congr_deriv ?_
    simp [Quat.matrix, skew, Matrix.mul_apply, Fin.sum_univ_three, Quat.mul]
    linear_combination q * hu
  · refine ((two y x _ _ hy hx).add (two z w _ _ hz hw)).congr_deriv ?_
    simp [Quat.matrix, skew, Matrix.mul_apply, Fin.sum_univ_three, Quat.mul]
    linear_combination r * hu
  · refine ((hasDerivAt_const t (1 : ℝ)).sub ((two x x _ _ hx hx).add (two z z _ _ hz hz))).congr_deriv ?_
    simp [Quat.matrix, skew, Matrix.mul_apply, Fin.sum_univ_three, Quat.mul]; ring
  · refine ((two z y _ _ hz hy).sub (two x w _ _ hx hw)).congr_deriv ?_
    simp [Quat.matrix, skew, Matrix.mul_apply, Fin.sum_univ_three, Quat.mul]
    linear_combination (-p) * hu
  · refine ((two z x _ _ hz hx).sub (two y w _ _ hy hw)).congr_deriv ?_
    simp [Quat.matrix, skew, Matrix.mul_apply, Fin.sum_univ_three, Quat.mul]
    linear_combination (-q) * hu
  · refine ((two z y _ _ hz hy).add (two x w _ _ hx hw)).congr_deriv ?_
    simp [Quat.matrix, skew, Matrix.mul_apply, Fin.sum_univ_three, Quat.mul]
    linear_combination p * hu
  · refine ((hasDerivAt_const t (1 : ℝ)).sub ((two x x _ _ hx hx).add (two y y _ _ hy hy))).congr_deriv ?_
    simp [Quat.matrix, skew, Matrix.mul_apply, Fin.sum_univ_three, Quat.mul]; ring

theorem cross_0 (a b : Vec3 K) : cross a b 0 = a 1 * b 2 - a 2 * b 1 := rfl
theorem cross_1 (a b : Vec3 K) : cross a b 1 = a 2 * b 0 - a 0 * b 2 := rfl
theorem cross_2 (a b : Vec3 K) : cross a b 2 = a 0 * b 1 - a 1 * b 0 := rfl

/-- **C28** (power) The wrench at `G` in the body frame has, on every rigid-body motion
(velocity `vG` of `G`, angular velocity `om`, in the body frame), the power of the wrench
(force, torque) at the origin `P` of the internal frame. -/
theorem controlled_wrench_power (R : Mat3 K) (OP G force torque vG om : Vec3 K) :
    dot (controlledWrenchAtG R OP G force torque).1 vG + dot (controlledWrenchAtG R OP G force torque).2 om =
    dot force (R.transpose.mulVec (vG + cross om (OP - G))) + dot torque (R.transpose.mulVec om) := by
  simp only [controlledWrenchAtG, dot, cross_0, cross_1, cross_2, Matrix.mulVec, dotProduct, Fin.sum_univ_three,
    Matrix.transpose_apply, Pi.add_apply, Pi.sub_apply, Pi.neg_apply]
  ring

/-- **C28** (inverse) Transporting back the wrench at `G` gives the original wrench. -/
theorem controlled_wrench_round_trip (R : Mat3 K) (hR : R.transpose * R = 1) (OP G force torque : Vec3 K) :
    feedInternal R OP G (controlledWrenchAtG R OP G force torque) = (force, torque) := by
  have hRR : ∀ v : Vec3 K, R.transpose.mulVec (R.mulVec v) = v := by
    intro v; rw [Matrix.mulVec_mulVec, hR, Matrix.one_mulVec]
  simp only [feedInternal, controlledWrenchAtG, hRR, Prod.mk.injEq, true_and]
  have : R.mulVec torque + cross (-G + OP) (R.mulVec force) + cross (G - OP) (R.mulVec force) = R.mulVec torque := by
    funext i
    match i with
    | 0 => simp only [Pi.add_apply, Pi.sub_apply, Pi.neg_apply, cross_0]; ring
    | 1 => simp only [Pi.add_apply, Pi.sub_apply, Pi.neg_apply, cross_1]; ring
    | 2 => simp only [Pi.add_apply, Pi.sub_apply, Pi.neg_apply, cross_2]; ring
  rw [this, hRR]

/-- **C29** (what the code does) The wrench observed in the internal frame has the right force,
but its torque is shifted by the moment of the force about a wrong point: the argument given
to `feed` is the position of the body in the NED frame instead of `G`. -/
theorem observed_wrench_error (R : Mat3 K) (hR : R.transpose * R = 1) (OP G force torque o : Vec3 K)
    (x : List K) (idx : Nat) (ho : getOrigin x idx = .ok o) :
    observedInternal R OP x idx (controlledWrenchAtG R OP G force torque) =
      .ok (force, torque + R.transpose.mulVec (cross (o - G) (R.mulVec force))) := by
  have hRR : ∀ v : Vec3 K, R.transpose.mulVec (R.mulVec v) = v := by
    intro v; rw [Matrix.mulVec_mulVec, hR, Matrix.one_mulVec]
  simp only [observedInternal, ho, feedInternal, controlledWrenchAtG, hRR, bind, Except.bind, pure, Except.pure,
    Except.ok.injEq, Prod.mk.injEq, true_and]
  have : R.mulVec torque + cross (-G + OP) (R.mulVec force) + cross (o - OP) (R.mulVec force) =
      R.mulVec torque + cross (o - G) (R.mulVec force) := by
    funext i
    match i with
    | 0 => simp only [Pi.add_apply, Pi.sub_apply, Pi.neg_apply, cross_0]; ring
    | 1 => simp only [Pi.add_apply, Pi.sub_apply, Pi.neg_apply, cross_1]; ring
    | 2 => simp only [Pi.add_apply, Pi.sub_apply, Pi.neg_apply, cross_2]; ring
  rw [this, Matrix.mulVec_add, hRR]

/-- **C29** (partial) The observed wrench is the computed one when the position of the body in
the NED frame happens to be `G`. -/
theorem observed_wrench_partial (R : Mat3 K) (hR : R.transpose * R = 1) (OP G force torque : Vec3 K)
    (x : List K) (idx : Nat) (ho : getOrigin x idx = .ok G) :
    observedInternal R OP x idx (controlledWrenchAtG R OP G force torque) = .ok (force, torque) := by
  rw [observed_wrench_error R hR OP G force torque G x idx ho]
  have : cross (G - G) (R.mulVec force) = 0 := by
    funext i
    fin_cases i <;> simp [cross]
  rw [this, Matrix.mulVec_zero, add_zero]

/-- **C29** is false in the code: a unit force along y at the origin of a body that has moved
10 m along x is reported with a torque of 10 N.m although the model computes none. -/
theorem observed_wrench_refuted :
    observedInternal (1 : Mat3 ℚ) ![0, 0, 0] (10 :: List.replicate 12 0) 0
      (controlledWrenchAtG (1 : Mat3 ℚ) ![0, 0, 0] ![0, 0, 0] ![0, 1, 0] ![0, 0, 0]) =
      .ok (![0, 1, 0], ![0, 0, 10]) := by
  rw [observed_wrench_error (1 : Mat3 ℚ) (by simp) _ _ _ _ ![10, 0, 0] _ _ (by
    simp [getOrigin, getUB, XIDX, YIDX, ZIDX, nbOfStatesPerBody, bind, Except.bind, pure, Except.pure])]
  simp only [Matrix.transpose_one, Matrix.one_mulVec, Except.ok.injEq, Prod.mk.injEq, true_and]
  funext i
  fin_cases i <;> simp [cross]

/-- **C30** (linear damping) If the damping matrix is positive semi-definite (not necessarily
symmetric) the damping wrench never gives energy to the body. -/
theorem linear_damping_dissipates (D : Mat6 K) (hD : ∀ W : Vec6 K, 0 ≤ ∑ i, ∑ j, W i * D i j * W j) (W : Vec6 K) :
    ∑ i, linearDamping D W i * W i ≤ 0 := by
  have h := hD W
  have : ∑ i, linearDamping D W i * W i = -∑ i, ∑ j, W i * D i j * W j := by
    simp only [linearDamping, Matrix.mulVec, dotProduct, Matrix.neg_apply, neg_mul, Finset.sum_neg_distrib,
      Finset.sum_mul]
    congr 1
    exact Finset.sum_congr rfl fun i _ => Finset.sum_congr rfl fun j _ => by ring
  rw [this]
  linarith

/-- **C30** (quadratic damping) With a diagonal matrix of non-negative coefficients the
quadratic damping wrench never gives energy to the body. -/
theorem quadratic_damping_dissipates (d : Vec6 K) (hd : ∀ i, 0 ≤ d i) (W : Vec6 K) :
    ∑ i, quadraticDamping (Matrix.diagonal d) W i * W i ≤ 0 := by
  apply Finset.sum_nonpos
  intro i _
  have : quadraticDamping (Matrix.diagonal d) W i * W i = -(d i * |W i| * (W i) ^ 2) := by
    simp only [quadraticDamping, Matrix.neg_mulVec, Pi.neg_apply, Matrix.mulVec_diagonal]
    ring
  rw [this]
  have := mul_nonneg (mul_nonneg (hd i) (abs_nonneg (W i))) (sq_nonneg (W i))
  linarith

/-- **C30** (odd) Both damping wrenches change sign with the velocity. -/
theorem damping_odd (D : Mat6 K) (W : Vec6 K) :
    linearDamping D (-W) = -linearDamping D W ∧ quadraticDamping D (-W) = -quadraticDamping D W := by
  constructor
  · simp [linearDamping, Matrix.mulVec_neg]
  · simp only [quadraticDamping, Pi.neg_apply, abs_neg]
    rw [← Matrix.mulVec_neg]
    congr 1
    funext i
    simp

/-- **C31** For every attitude (orthogonal matrix), the gravity force projected in the NED frame
is (0, 0, m g), its norm is m g and it has no moment about `G`. -/
theorem gravity_is_the_weight (inertia : Mat6 K) (g : K) (R : Mat3 K) (hR : R * R.transpose = 1) :
    (projectIntoNed R (gravity inertia g R).1 (gravity inertia g R).2).1 = ![0, 0, inertia 2 2 * g] ∧
    dot (gravity inertia g R).1 (gravity inertia g R).1 = (inertia 2 2 * g) ^ 2 ∧
    (gravity inertia g R).2 = 0 := by
  refine ⟨?_, ?_, ?_⟩
  · simp only [projectIntoNed, gravity, Matrix.mulVec_mulVec, hR, Matrix.one_mulVec]
  · have h22 : R 2 0 * R 2 0 + R 2 1 * R 2 1 + R 2 2 * R 2 2 = 1 := by
      have := congrFun (congrFun hR 2) 2
      simpa [Matrix.mul_apply, Fin.sum_univ_three] using this
    simp [gravity, dot, Matrix.mulVec, dotProduct, Fin.sum_univ_three, Matrix.transpose_apply]
    linear_combination (inertia 2 2 * g) ^ 2 * h22
  · funext i
    fin_cases i <;> simp [gravity]

/-- **C31** (energy) The work of the weight in a displacement of the (first) body with velocity
(u, v, w) during `dt` is minus the variation of the potential energy, the derivative of `z` being
the one computed by `Body::calculate_state_derivatives`. -/
theorem gravity_power (inertia : Mat6 K) (g dt : K) (R : Mat3 K) (uvw : Vec3 K) (x x' : List K)
    (z z' : K) (hz : x[2]? = some z) (hz' : x'[2]? = some z') (h : z' = z + R.mulVec uvw 2 * dt) :
    ∃ E E', gravityPotentialEnergy inertia g x = .ok E ∧ gravityPotentialEnergy inertia g x' = .ok E' ∧
      dot (gravity inertia g R).1 uvw * dt = -(E' - E) := by
  refine ⟨_, _, by simp only [gravityPotentialEnergy, getUB, hz]; rfl,
    by simp only [gravityPotentialEnergy, getUB, hz']; rfl, ?_⟩
  rw [h]
  simp [gravity, dot, Matrix.mulVec, dotProduct, Fin.sum_univ_three, Matrix.transpose_apply]
  ring

/-- The potential energy always uses `x[2]`, the depth of the first body: for another body it
does not depend on the position of this body. -/
theorem gravity_energy_first_body_only (inertia : Mat6 K) (g : K) (x1 x2 x2' : List K) (h : x1.length = 13) :
    gravityPotentialEnergy inertia g (x1 ++ x2) = gravityPotentialEnergy inertia g (x1 ++ x2') := by
  simp only [gravityPotentialEnergy, getUB, List.getElem?_append_left (show 2 < x1.length by omega)]

/-- Hypotheses of C26, C28, C31 are met by a non-trivial attitude. -/
example : (⟨1 / 2, 1 / 2, 1 / 2, 1 / 2⟩ : Quat ℚ).matrix * (⟨1 / 2, 1 / 2, 1 / 2, 1 / 2⟩ : Quat ℚ).matrix.transpose = 1 :=
  (rotation_matrix_orthogonal _ (by norm_num)).1

/-- Hypotheses of C30 are met by a non-symmetric, non-diagonal matrix. -/
example : ∀ W : Vec6 ℚ, 0 ≤ ∑ i, ∑ j, W i * ((1 + Matrix.single 0 1 1 - Matrix.single 1 0 1 : Mat6 ℚ) : Mat6 ℚ) i j * W j := by
  intro W
  simp [Fin.sum_univ_six, Matrix.single, Matrix.one_apply]
  nlinarith [sq_nonneg (W 0), sq_nonneg (W 1), sq_nonneg (W 2), sq_nonneg (W 3), sq_nonneg (W 4), sq_nonneg (W 5)]

/-- Hypotheses of C23 are met: `v` of body 0 is blocked, the inertia is 2 on the diagonal. -/
example :
    let T : Table ℚ := ⟨.V, [0, 2], [5, 5], .linear⟩
    let bd := build (fun _ => .error .ub) (fun T => .ok (constInterp (T.value.headD 0))) ⟨[T], []⟩ 0
    (bd.bind (fun b => stateDerivatives b (Matrix.diagonal (fun _ => 1 / 2)) (fun _ => 6) 1
      (List.replicate 13 1) (List.replicate 13 0) 1 0)) = .ok [1, 1, 1, 3, 0, 3, 3, 3, 3, -3 / 2, 1 / 2, 1 / 2, 1 / 2] := by
  decide +kernel

end Xdyn.Body

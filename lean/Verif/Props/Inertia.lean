import Verif.Model.Inertia
import Verif.Lemmas.Sylvester
import Verif.Lemmas.Hdb
import Mathlib.Tactic.NormNum
import Mathlib.Tactic.FinCases
import Mathlib.LinearAlgebra.Matrix.Block

/-! Property C107: the inertia matrices of a body. -/

namespace Xdyn.Inertia

open Body Matrix

theorem isSymmetric_iff {n : Nat} (m : Matrix (Fin n) (Fin n) ℝ) :
    isSymmetric m = true ↔ ∀ i j, i < j → |m i j - m j i| ≤ 1 / 10 ^ 10 := by
  simp only [isSymmetric, List.all_eq_true, List.mem_finRange, true_implies, tol, Bool.not_eq_true', Bool.and_eq_false_iff,
    decide_eq_false_iff_not]
  constructor
  · intro h i j hij
    rcases h i j with h | h
    · exact absurd hij h
    · exact not_lt.1 (of_decide_eq_false h)
  · intro h i j
    rcases lt_or_ge i j with hij | hij
    · exact Or.inr (decide_eq_false (not_lt.2 (h i j hij)))
    · exact Or.inl (not_lt.2 hij)

theorem sdp_iff {n : Nat} (m : Matrix (Fin n) (Fin n) ℝ) :
    isSymmetricDefinitePositive m = true ↔
      (∀ i j, i < j → |m i j - m j i| ≤ 1 / 10 ^ 10) ∧ ∀ k (h : k ≤ n), 0 < k → 0 < (lead m k h).det := by
  unfold isSymmetricDefinitePositive
  rw [Bool.and_eq_true, isSymmetric_iff]
  refine and_congr_right fun _ => ?_
  simp only [List.all_eq_true, List.mem_finRange, true_implies, Bool.not_eq_true', decide_eq_false_iff_not, not_le]
  constructor
  · intro h k hk h0
    obtain ⟨k, rfl⟩ := Nat.exists_eq_succ_of_ne_zero (Nat.pos_iff_ne_zero.1 h0)
    exact h ⟨k, hk⟩
  · intro h i
    exact h (i.val + 1) i.isLt (Nat.succ_pos _)

/-- **C107** (any size) For a symmetric matrix, the test made on the leading minors accepts
exactly the positive definite matrices: the kinetic energy `x . M x / 2` of any velocity `x`
other than zero is positive. -/
theorem sdp_exact {n : Nat} (m : Matrix (Fin n) (Fin n) ℝ) (hs : m.transpose = m) :
    isSymmetricDefinitePositive m = true ↔ ∀ x : Fin n → ℝ, x ≠ 0 → 0 < x ⬝ᵥ m.mulVec x := by
  have hpd : m.PosDef ↔ ∀ x : Fin n → ℝ, x ≠ 0 → 0 < x ⬝ᵥ m.mulVec x := by
    rw [posDef_iff_dotProduct_mulVec]
    constructor
    · intro h x hx
      simpa using h.2 hx
    · intro h
      exact ⟨hs, fun {x} hx => by simpa using h x hx⟩
  rw [← hpd, sdp_iff]
  constructor
  · rintro ⟨_, h⟩
    exact sylvester m hs h
  · intro h
    refine ⟨fun i j _ => ?_, fun k hk _ => lead_pos m h k hk⟩
    have : m i j = m j i := congrFun (congrFun hs j) i
    rw [this, sub_self, abs_zero]
    positivity

/-- What is known of accepted matrices, symmetric or not. -/
theorem addInertia_inv {Mrb Ma : Except Err (Mat6 ℝ)} {r : Inertias} (h : addInertia Mrb Ma = .ok r) :
    ∃ A, Mrb = .ok r.solid ∧ Ma = .ok A ∧ isSymmetricDefinitePositive r.solid = true ∧ isSymmetric A = true ∧
      isSymmetricDefinitePositive r.total = true ∧ r.total = r.solid + A ∧ r.inverse = r.total⁻¹ := by
  unfold addInertia at h
  cases Mrb with
  | error e => cases h
  | ok M =>
    cases Ma with
    | error e =>
      by_cases h1 : isSymmetricDefinitePositive M = true <;>
        simp [h1, bind, Except.bind, pure, Except.pure, throw, throwThe, MonadExceptOf.throw] at h
    | ok A =>
      by_cases h1 : isSymmetricDefinitePositive M = true <;> by_cases h2 : isSymmetric A = true <;>
        by_cases h3 : isSymmetricDefinitePositive (M + A) = true <;>
        simp [h1, h2, h3, bind, Except.bind, pure, Except.pure, throw, throwThe, MonadExceptOf.throw] at h
      subst h
      exact ⟨A, rfl, rfl, h1, h2, h3, rfl, rfl⟩

theorem lead_full {n : Nat} (m : Matrix (Fin n) (Fin n) ℝ) : lead m n le_rfl = m := by
  ext i j; rfl

/-- **C107** (accelerations) Whenever the inertia of a body is accepted, the total inertia is the
sum of the rigid body inertia and of the added mass, and it is invertible: the accelerations `a`
computed from the forces `F` are the only solution of `M a = F`. -/
theorem accepted_accelerations {Mrb Ma : Except Err (Mat6 ℝ)} {r : Inertias} (h : addInertia Mrb Ma = .ok r) :
    (∃ A, Ma = .ok A ∧ Mrb = .ok r.solid ∧ r.total = r.solid + A) ∧
    ∀ F a : Vec6 ℝ, r.total.mulVec a = F ↔ a = r.inverse.mulVec F := by
  obtain ⟨A, h1, h2, _, _, h5, h6, h7⟩ := addInertia_inv h
  refine ⟨⟨A, h2, h1, h6⟩, ?_⟩
  have hd : 0 < r.total.det := by
    have := ((sdp_iff _).1 h5).2 6 le_rfl (by norm_num)
    rwa [lead_full] at this
  have hu : IsUnit r.total.det := isUnit_iff_ne_zero.2 (ne_of_gt hd)
  intro F a
  rw [h7]
  constructor
  · rintro rfl
    rw [mulVec_mulVec, nonsing_inv_mul _ hu, one_mulVec]
  · rintro rfl
    rw [mulVec_mulVec, mul_nonsing_inv _ hu, one_mulVec]

/-- **C107** (acceptance) For symmetric matrices, the inertia of a body is accepted exactly when
the rigid body inertia and the total inertia are positive definite. -/
theorem inertia_accepted_partial (Mrb Ma : Mat6 ℝ) (hs : Mrb.transpose = Mrb) (ha : Ma.transpose = Ma) :
    (∃ r, addInertia (.ok Mrb) (.ok Ma) = .ok r) ↔
      (∀ x : Vec6 ℝ, x ≠ 0 → 0 < x ⬝ᵥ Mrb.mulVec x) ∧ ∀ x : Vec6 ℝ, x ≠ 0 → 0 < x ⬝ᵥ (Mrb + Ma).mulVec x := by
  have ht : (Mrb + Ma).transpose = Mrb + Ma := by rw [transpose_add, hs, ha]
  rw [← sdp_exact _ hs, ← sdp_exact _ ht]
  have hsa : isSymmetric Ma = true := by
    rw [isSymmetric_iff]
    intro i j _
    have : Ma i j = Ma j i := congrFun (congrFun ha j) i
    rw [this, sub_self, abs_zero]
    positivity
  constructor
  · rintro ⟨r, h⟩
    obtain ⟨A, h1, h2, h3, _, h5, h6, _⟩ := addInertia_inv h
    cases h1; cases h2
    exact ⟨h3, h6 ▸ h5⟩
  · rintro ⟨h1, h2⟩
    refine ⟨{ solid := Mrb, total := Mrb + Ma, inverse := (Mrb + Ma)⁻¹ }, ?_⟩
    simp only [addInertia, h1, h2, hsa, bind, Except.bind, pure, Except.pure, Bool.not_true, Bool.false_eq_true, if_false]

theorem self_pos {n : Nat} (x : Fin n → ℝ) (hx : x ≠ 0) : 0 < x ⬝ᵥ x := by
  refine lt_of_le_of_ne (Finset.sum_nonneg fun i _ => mul_self_nonneg _) (Ne.symm ?_)
  rw [Ne, dotProduct_self_eq_zero]
  exact hx

/-- Matrices used below: the 2 x 2 block `(a, b; 0, a)` followed by ones. -/
def upper (a b : ℝ) : Mat6 ℝ :=
  !![a, b, 0, 0, 0, 0; 0, a, 0, 0, 0, 0; 0, 0, 1, 0, 0, 0; 0, 0, 0, 1, 0, 0; 0, 0, 0, 0, 1, 0; 0, 0, 0, 0, 0, 1]

/-- A non-trivial inertia that is accepted: symmetric with coupling. -/
example : ∃ r, addInertia (.ok 1) (.ok (Matrix.diagonal ![1, 2, 3, 4, 5, 6])) = .ok r := by
  rw [inertia_accepted_partial _ _ (by simp) (by simp)]
  constructor
  · intro x hx
    rw [one_mulVec]
    exact self_pos x hx
  · intro x hx
    have h0 := self_pos x hx
    simp only [dotProduct, mulVec, Fin.sum_univ_six, Matrix.add_apply, one_apply, diagonal_apply] at h0 ⊢
    simp
    nlinarith [mul_self_nonneg (x 0), mul_self_nonneg (x 1), mul_self_nonneg (x 2), mul_self_nonneg (x 3), mul_self_nonneg (x 4),
      mul_self_nonneg (x 5)]

theorem upper_lead (a b : ℝ) (ha : 0 < a) (k : Nat) (hk : k ≤ 6) : 0 < (lead (upper a b) k hk).det := by
  rw [det_of_upperTriangular]
  · apply Finset.prod_pos
    intro i _
    simp only [lead, submatrix_apply]
    generalize Fin.castLE hk i = j
    fin_cases j <;> simp [upper, ha]
  · intro i j hij
    simp only [lead, submatrix_apply]
    have h : Fin.castLE hk j < Fin.castLE hk i := hij
    revert h
    generalize Fin.castLE hk i = i
    generalize Fin.castLE hk j = j
    intro h
    fin_cases i <;> fin_cases j <;> first | (exact absurd h (by decide)) | simp [upper]

/-- **C107, refuted for matrices symmetric up to the tolerance** An inertia whose kinetic energy
is negative for some velocity is accepted: the tolerance on the symmetry (1E-10) is absolute. -/
theorem inertia_accepted_refuted :
    (∃ r, addInertia (.ok (upper (1 / 10 ^ 12) (1 / 10 ^ 10))) (.ok 0) = .ok r) ∧
    ∃ x : Vec6 ℝ, x ⬝ᵥ (upper (1 / 10 ^ 12) (1 / 10 ^ 10)).mulVec x < 0 := by
  constructor
  · have h1 : isSymmetricDefinitePositive (upper (1 / 10 ^ 12) (1 / 10 ^ 10)) = true := by
      rw [sdp_iff]
      refine ⟨?_, fun k hk _ => upper_lead _ _ (by norm_num) k hk⟩
      intro i j h
      fin_cases i <;> fin_cases j <;> first | (exact absurd h (by decide)) | (simp [upper]; try norm_num)
    have h0 : isSymmetric (0 : Mat6 ℝ) = true := by
      rw [isSymmetric_iff]
      intro i j _
      simp
    refine ⟨Inertias.mk (upper (1 / 10 ^ 12) (1 / 10 ^ 10)) (upper (1 / 10 ^ 12) (1 / 10 ^ 10)) (upper (1 / 10 ^ 12) (1 / 10 ^ 10))⁻¹, ?_⟩
    simp only [addInertia, h1, h0, add_zero, bind, Except.bind, pure, Except.pure, Bool.not_true, Bool.false_eq_true, if_false]
  · refine ⟨![1, -1, 0, 0, 0, 0], ?_⟩
    simp [upper, dotProduct, mulVec, Fin.sum_univ_six]
    norm_num

/-- The six values of a column. -/
theorem readColumn_ok (M : Rows) (j : Nat) (v : Vec6 ℝ) : readColumn M j = .ok v ↔ ∀ i, (M.row i)[j]? = some (v i) := by
  have key : ∀ {l : List ℝ} {a : ℝ}, getAt l j = .ok a ↔ l[j]? = some a := by
    intro l a
    unfold getAt
    cases l[j]? <;> simp
  constructor
  · intro h
    unfold readColumn at h
    simp only [bind, Except.bind, pure, Except.pure] at h
    repeat' split at h
    any_goals cases h
    rename_i _ a ha _ b hb _ c hc _ d hd _ e he _ f hf
    intro i
    fin_cases i
    · exact key.1 ha
    · exact key.1 hb
    · exact key.1 hc
    · exact key.1 hd
    · exact key.1 he
    · exact key.1 hf
  · intro h
    have h0 : getAt M.row1 j = .ok (v 0) := key.2 (h 0)
    have h1 : getAt M.row2 j = .ok (v 1) := key.2 (h 1)
    have h2 : getAt M.row3 j = .ok (v 2) := key.2 (h 2)
    have h3 : getAt M.row4 j = .ok (v 3) := key.2 (h 3)
    have h4 : getAt M.row5 j = .ok (v 4) := key.2 (h 4)
    have h5 : getAt M.row6 j = .ok (v 5) := key.2 (h 5)
    simp only [readColumn, h0, h1, h2, h3, h4, h5, bind, Except.bind, pure, Except.pure]
    congr 1
    ext i
    fin_cases i <;> rfl

theorem getAt_throw {l : List ℝ} {j : Nat} {e : Err} (h : getAt l j = .error e) : ∃ m, e = .throw m := by
  unfold getAt at h
  cases hl : l[j]? with
  | none => rw [hl] at h; cases h; exact ⟨_, rfl⟩
  | some a => rw [hl] at h; cases h

theorem readColumn_error (M : Rows) (j : Nat) (e : Err) (h : readColumn M j = .error e) : ∃ m, e = .throw m := by
  unfold readColumn at h
  simp only [bind, Except.bind, pure, Except.pure] at h
  repeat' split at h
  all_goals cases h
  all_goals (rename_i h; exact getAt_throw h)

theorem mapM_error_of {α β : Type} {f : α → Except Err β} : ∀ {l : List α} {e : Err}, l.mapM f = .error e →
    ∃ x ∈ l, f x = .error e
  | [], e, h => by simp [pure, Except.pure] at h
  | x :: l, e, h => by
    rw [List.mapM_cons] at h
    cases hx : f x with
    | error e' =>
      simp only [hx, bind, Except.bind] at h
      cases h
      exact ⟨x, by simp, hx⟩
    | ok b =>
      cases hl : l.mapM f with
      | ok r => simp [hx, hl, bind, Except.bind, pure, Except.pure] at h
      | error e' =>
        simp only [hx, hl, bind, Except.bind] at h
        cases h
        obtain ⟨y, hy, hf⟩ := mapM_error_of hl
        exact ⟨y, by simp [hy], hf⟩

/-- **C107** (lines of the matrix) The six lines of the YAML become the six lines of the matrix,
when each has at least six values (the next ones are ignored); otherwise an exception is
thrown. -/
theorem convert_rows (M : Rows) :
    (∀ i, 6 ≤ (M.row i).length) ∧ (∃ m, convert M = .ok m ∧ ∀ i j : Fin 6, (M.row i)[j.val]? = some (m i j)) ∨
    (∃ i, (M.row i).length < 6) ∧ ∃ e, convert M = .error (.throw e) := by
  cases hc : (List.range 6).mapM (readColumn M) with
  | error e =>
    right
    obtain ⟨j, hj, hf⟩ := mapM_error_of hc
    obtain ⟨m, rfl⟩ := readColumn_error M j e hf
    refine ⟨?_, m, by simp only [convert, hc, bind, Except.bind]; rfl⟩
    by_contra hn
    push Not at hn
    have hj' : j < 6 := List.mem_range.1 hj
    have := (readColumn_ok M j (fun i => (M.row i)[j]'(lt_of_lt_of_le hj' (hn i)))).2 (fun i => List.getElem?_eq_getElem _)
    rw [hf] at this
    cases this
  | ok c =>
    left
    obtain ⟨hl, hk⟩ := Hdb.mapM_inv hc
    have hcol : ∀ i j : Fin 6, (M.row i)[j.val]? = some (c.getD j.val (fun _ => 0) i) := by
      intro i j
      obtain ⟨b, hb, hr⟩ := hk j.val j.val (by simp)
      rw [(readColumn_ok M j.val b).1 hr i, List.getD_eq_getElem?_getD, hb]
      rfl
    refine ⟨fun i => ?_, fun i j => c.getD j.val (fun _ => 0) i, by simp only [convert, hc, bind, Except.bind, pure, Except.pure]; rfl, hcol⟩
    have := hcol i 5
    obtain ⟨h5, _⟩ := List.getElem?_eq_some_iff.1 this
    exact h5

end Xdyn.Inertia

import Mathlib.Analysis.Matrix.Order
import Mathlib.Analysis.Matrix.PosDef
import Mathlib.LinearAlgebra.Matrix.SchurComplement
import Mathlib.LinearAlgebra.Matrix.PosDef

/-! Sylvester's criterion for real symmetric matrices. -/

namespace Xdyn.Inertia

open Matrix

/-- The `k` first lines and columns. -/
def lead {n : Nat} (m : Matrix (Fin n) (Fin n) ℝ) (k : Nat) (h : k ≤ n) : Matrix (Fin k) (Fin k) ℝ :=
  m.submatrix (Fin.castLE h) (Fin.castLE h)

theorem lead_pos {n : Nat} (m : Matrix (Fin n) (Fin n) ℝ) (hm : m.PosDef) (k : Nat) (h : k ≤ n) : 0 < (lead m k h).det := by
  have : (lead m k h).PosDef := hm.submatrix (Fin.castLE_injective h)
  exact this.det_pos

theorem sylvester {n : Nat} (m : Matrix (Fin n) (Fin n) ℝ) (hs : m.transpose = m)
    (hd : ∀ k (h : k ≤ n), 0 < k → 0 < (lead m k h).det) : m.PosDef := by
  induction n with
  | zero =>
    rw [posDef_iff_dotProduct_mulVec]
    exact ⟨by ext i; exact i.elim0, fun x hx => absurd (Subsingleton.elim x 0) hx⟩
  | succ n ih =>
    let A := lead m n (Nat.le_succ n)
    have hA : A.PosDef := by
      apply ih
      · ext i j
        exact congrFun (congrFun hs _) _
      · intro k h hk
        exact hd k (by omega) hk
    let e : Fin n ⊕ Fin 1 ≃ Fin (n + 1) := finSumFinEquiv
    let m' := m.submatrix e e
    let B : Matrix (Fin n) (Fin 1) ℝ := fun i j => m (e (.inl i)) (e (.inr j))
    let D : Matrix (Fin 1) (Fin 1) ℝ := fun i j => m (e (.inr i)) (e (.inr j))
    have hsym : ∀ i j, m i j = m j i := fun i j => (congrFun (congrFun hs j) i)
    have hm' : m' = fromBlocks A B Bᴴ D := by
      ext i j
      rcases i with i | i <;> rcases j with j | j
      · rfl
      · rfl
      · simp only [m', submatrix_apply, fromBlocks_apply₂₁, conjTranspose_apply, B, star_trivial]
        exact hsym _ _
      · rfl
    have hdet : m.det = m'.det := (det_submatrix_equiv_self e m).symm
    have hpos : 0 < m.det := by
      have := hd (n + 1) le_rfl (Nat.succ_pos n)
      have e1 : lead m (n + 1) le_rfl = m := by
        ext i j; rfl
      rwa [e1] at this
    haveI : Invertible A := hA.isUnit.invertible
    have hS : m'.det = A.det * (D - Bᴴ * A⁻¹ * B).det := by
      rw [hm', det_fromBlocks₁₁, invOf_eq_nonsing_inv]
    have hAd : 0 < A.det := hA.det_pos
    have hSd : 0 < (D - Bᴴ * A⁻¹ * B).det := by
      rw [hdet, hS] at hpos
      exact (pos_iff_pos_of_mul_pos hpos).1 hAd
    have hSp : (D - Bᴴ * A⁻¹ * B).PosSemidef := by
      rw [posSemidef_iff_dotProduct_mulVec]
      refine ⟨?_, ?_⟩
      · ext i j
        rw [Subsingleton.elim i j]
        simp
      · intro x
        rw [det_fin_one] at hSd
        simp only [dotProduct, mulVec, Finset.univ_unique, Fin.default_eq_zero, Finset.sum_singleton, star_trivial]
        nlinarith [mul_self_nonneg (x 0), mul_nonneg (mul_self_nonneg (x 0)) hSd.le]
    have hsemi : m'.PosSemidef := by
      rw [hm']
      exact (PosDef.fromBlocks₁₁ B D hA).2 hSp
    have hpd : m'.PosDef := hsemi.posDef_iff_det_ne_zero.2 (by rw [← hdet]; exact ne_of_gt hpos)
    have : m = m'.submatrix e.symm e.symm := by
      ext i j; simp [m']
    rw [this]
    exact hpd.submatrix e.symm.injective

end Xdyn.Inertia

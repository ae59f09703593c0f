import Verif.Lemmas.BlockedDof
import Verif.Model.Body
import Mathlib.Tactic.Ring
import Mathlib.Tactic.LinearCombination
import Mathlib.LinearAlgebra.Matrix.Determinant.Basic
import Mathlib.Tactic.FinCases

/-! Lemmas about the model of Body.cpp. -/

namespace Xdyn.Body

open Spec Blocked

variable {K : Type} [Field K]

theorem setUB_ok {α : Type} {l l' : List α} {i : Nat} {v : α} (h : setUB l i v = .ok l') :
    i < l.length ∧ l' = l.set i v := by
  unfold setUB at h
  split at h
  · simp only [Except.ok.injEq] at h; exact ⟨by assumption, h.symm⟩
  · simp at h

theorem getUB_ok {α : Type} {l : List α} {i : Nat} {v : α} (h : getUB l i = .ok v) : l[i]? = some v := by
  unfold getUB at h
  cases hl : l[i]? with
  | none => simp [hl] at h
  | some w => simpa [hl] using h

theorem getUB_of_lt {α : Type} {l : List α} {i : Nat} (h : i < l.length) : getUB l i = .ok l[i] := by
  simp [getUB, h]

theorem getAt_of_lt {α : Type} {l : List α} {i : Nat} (h : i < l.length) : getAt l i = .ok l[i] := by
  simp [getAt, h]

/-- The state derivatives before blocking, in closed form. -/
theorem unforced_ok (Minv : Mat6 K) (F : Vec6 K) (R : Mat3 K) (x dx : List K) (idx : Nat)
    (hx : 13 * (idx + 1) ≤ x.length) (hdx : 13 * (idx + 1) ≤ dx.length) :
    ∃ (st : States K) (dx' : List K), unforcedDerivatives Minv F R x dx idx = .ok dx' ∧
      (∀ s, x[slot idx s]? = some (field st s)) ∧
      dx'.length = dx.length ∧
      (∀ k, (k < 13 * idx ∨ 13 * (idx + 1) ≤ k) → dx'[k]? = dx[k]?) ∧
      (∀ i : Fin 3, dx'[13 * idx + i]? = some (R.mulVec ![st.u, st.v, st.w] i)) ∧
      (∀ i : Fin 6, dx'[13 * idx + 3 + i]? = some (Minv.mulVec F i)) ∧
      dx'[slot idx .qr]? = some (1 / 2 * (Quat.mul ⟨st.qr, st.qi, st.qj, st.qk⟩ ⟨0, st.p, st.q, st.r⟩).w) ∧
      dx'[slot idx .qi]? = some (1 / 2 * (Quat.mul ⟨st.qr, st.qi, st.qj, st.qk⟩ ⟨0, st.p, st.q, st.r⟩).x) ∧
      dx'[slot idx .qj]? = some (1 / 2 * (Quat.mul ⟨st.qr, st.qi, st.qj, st.qk⟩ ⟨0, st.p, st.q, st.r⟩).y) ∧
      dx'[slot idx .qk]? = some (1 / 2 * (Quat.mul ⟨st.qr, st.qi, st.qj, st.qk⟩ ⟨0, st.p, st.q, st.r⟩).z) := by
  have hx0 : idx * 13 < x.length := by omega
  have hx1 : idx * 13 + 1 < x.length := by omega
  have hx2 : idx * 13 + 2 < x.length := by omega
  have hx3 : idx * 13 + 3 < x.length := by omega
  have hx4 : idx * 13 + 4 < x.length := by omega
  have hx5 : idx * 13 + 5 < x.length := by omega
  have hx6 : idx * 13 + 6 < x.length := by omega
  have hx7 : idx * 13 + 7 < x.length := by omega
  have hx8 : idx * 13 + 8 < x.length := by omega
  have hx9 : idx * 13 + 9 < x.length := by omega
  have hx10 : idx * 13 + 10 < x.length := by omega
  have hx11 : idx * 13 + 11 < x.length := by omega
  have hx12 : idx * 13 + 12 < x.length := by omega
  have hd0 : idx * 13 < dx.length := by omega
  have hd1 : idx * 13 + 1 < dx.length := by omega
  have hd2 : idx * 13 + 2 < dx.length := by omega
  have hd3 : idx * 13 + 3 < dx.length := by omega
  have hd4 : idx * 13 + 4 < dx.length := by omega
  have hd5 : idx * 13 + 5 < dx.length := by omega
  have hd6 : idx * 13 + 6 < dx.length := by omega
  have hd7 : idx * 13 + 7 < dx.length := by omega
  have hd8 : idx * 13 + 8 < dx.length := by omega
  have hd9 : idx * 13 + 9 < dx.length := by omega
  have hd10 : idx * 13 + 10 < dx.length := by omega
  have hd11 : idx * 13 + 11 < dx.length := by omega
  have hd12 : idx * 13 + 12 < dx.length := by omega
  refine ⟨⟨x[idx * 13], x[idx * 13 + 1], x[idx * 13 + 2], x[idx * 13 + 3], x[idx * 13 + 4], x[idx * 13 + 5],
    x[idx * 13 + 6], x[idx * 13 + 7], x[idx * 13 + 8], x[idx * 13 + 9], x[idx * 13 + 10], x[idx * 13 + 11],
    x[idx * 13 + 12]⟩, ?_⟩
  refine ⟨_, by
    simp only [unforcedDerivatives, quatOf, UIDX, VIDX, WIDX, PIDX, QIDX, RIDX, XIDX, YIDX, ZIDX, QRIDX, QIIDX, QJIDX,
      QKIDX, nbOfStatesPerBody, setUB, List.length_set, hd0, hd1, hd2, hd3, hd4, hd5, hd6, hd7, hd8, hd9, hd10,
      hd11, hd12, if_true, bind, Except.bind, pure, Except.pure,
      getUB_of_lt hx3, getUB_of_lt hx4, getUB_of_lt hx5, getUB_of_lt hx6, getUB_of_lt hx7,
      getUB_of_lt hx8, getUB_of_lt hx9, getUB_of_lt hx10, getUB_of_lt hx11, getUB_of_lt hx12]
    rfl, ?_, ?_, ?_, ?_, ?_, ?_, ?_, ?_, ?_⟩
  · intro s
    have hs : slot idx s = idx * 13 + s.rank := by simp [slot, Nat.mul_comm]
    rw [hs]
    cases s <;> simp only [StateName.rank, field, Nat.add_zero] <;> exact List.getElem?_eq_getElem (by omega)
  · simp
  · intro k hk
    have h0 : ∀ j, j < 13 → idx * 13 + j ≠ k := by intro j hj; omega
    have h00 := h0 0 (by omega)
    simp only [Nat.add_zero] at h00
    simp only [List.getElem?_set, h00, h0 1 (by omega), h0 2 (by omega), h0 3 (by omega), h0 4 (by omega),
      h0 5 (by omega), h0 6 (by omega), h0 7 (by omega), h0 8 (by omega), h0 9 (by omega), h0 10 (by omega),
      h0 11 (by omega), h0 12 (by omega), if_false]
  · intro i
    rw [Nat.mul_comm 13]
    fin_cases i <;> simp [List.getElem?_set, hd0, hd1, hd2]
  · intro i
    rw [Nat.mul_comm 13]
    fin_cases i <;> simp [List.getElem?_set, Nat.add_assoc, hd3, hd4, hd5, hd6, hd7, hd8]
  · have hs : slot idx .qr = idx * 13 + 9 := by simp [slot, StateName.rank, Nat.mul_comm]
    rw [hs]
    simp [List.getElem?_set, hd9]
  · have hs : slot idx .qi = idx * 13 + 10 := by simp [slot, StateName.rank, Nat.mul_comm]
    rw [hs]
    simp [List.getElem?_set, hd10]
  · have hs : slot idx .qj = idx * 13 + 11 := by simp [slot, StateName.rank, Nat.mul_comm]
    rw [hs]
    simp [List.getElem?_set, hd11]
  · have hs : slot idx .qk = idx * 13 + 12 := by simp [slot, StateName.rank, Nat.mul_comm]
    rw [hs]
    simp [List.getElem?_set, hd12]

end Xdyn.Body

import Verif.Spec.State
import Verif.Lemmas.History

/-! Property C16: layout of the state vector. -/

namespace Xdyn.State

open Spec

/-- Index given by the macros of StateMacros.hpp:17-29 for each state name. -/
def macroIndex (i : Nat) : StateName → Nat
  | .x => XIDX i | .y => YIDX i | .z => ZIDX i | .u => UIDX i | .v => VIDX i | .w => WIDX i
  | .p => PIDX i | .q => QIDX i | .r => RIDX i | .qr => QRIDX i | .qi => QIIDX i | .qj => QJIDX i
  | .qk => QKIDX i

theorem macroIndex_eq_slot (i : Nat) (s : StateName) : macroIndex i s = slot i s := by
  cases s <;> simp [macroIndex, slot, StateName.rank, XIDX, YIDX, ZIDX, UIDX, VIDX, WIDX, PIDX, QIDX,
    RIDX, QRIDX, QIIDX, QJIDX, QKIDX, nbOfStatesPerBody, Nat.mul_comm]

/-- **C16** The index of each state of each body is the documented one, two different
(body, state) pairs never share an index, and `n` bodies fill exactly the indices
`0 .. 13 n - 1`. -/
theorem state_vector_layout :
    (∀ i s, macroIndex i s = 13 * i + s.rank) ∧
    (∀ i j s s', macroIndex i s = macroIndex j s' → i = j ∧ s = s') ∧
    (∀ n k, k < 13 * n ↔ ∃ i s, i < n ∧ macroIndex i s = k) := by
  have hr : ∀ s : StateName, s.rank < 13 := by intro s; cases s <;> decide
  have hinj : ∀ s s' : StateName, s.rank = s'.rank → s = s' := by
    intro s s'; cases s <;> cases s' <;> simp [StateName.rank]
  have hsurj : ∀ r < 13, ∃ s : StateName, s.rank = r := by
    intro r h
    match r, h with
    | 0, _ => exact ⟨.x, rfl⟩
    | 1, _ => exact ⟨.y, rfl⟩
    | 2, _ => exact ⟨.z, rfl⟩
    | 3, _ => exact ⟨.u, rfl⟩
    | 4, _ => exact ⟨.v, rfl⟩
    | 5, _ => exact ⟨.w, rfl⟩
    | 6, _ => exact ⟨.p, rfl⟩
    | 7, _ => exact ⟨.q, rfl⟩
    | 8, _ => exact ⟨.r, rfl⟩
    | 9, _ => exact ⟨.qr, rfl⟩
    | 10, _ => exact ⟨.qi, rfl⟩
    | 11, _ => exact ⟨.qj, rfl⟩
    | 12, _ => exact ⟨.qk, rfl⟩
    | n + 13, h => omega
  refine ⟨macroIndex_eq_slot, ?_, ?_⟩
  · intro i j s s' h
    rw [macroIndex_eq_slot, macroIndex_eq_slot] at h
    simp only [slot] at h
    have h1 := hr s
    have h2 := hr s'
    have hij : i = j := by omega
    exact ⟨hij, hinj _ _ (by omega)⟩
  · intro n k
    constructor
    · intro h
      obtain ⟨s, hs⟩ := hsurj (k % 13) (by omega)
      refine ⟨k / 13, s, by omega, ?_⟩
      rw [macroIndex_eq_slot]
      simp only [slot, hs]
      omega
    · rintro ⟨i, s, hi, rfl⟩
      rw [macroIndex_eq_slot]
      have := hr s
      simp only [slot]
      omega

variable {K : Type} [Field K] [LinearOrder K] [IsStrictOrderedRing K]

/-- **C16** (values) The state vector extracted from the histories (State.cpp:48-63) follows
the same layout: entry `macroIndex 0 s` is the value of the `k`-th sample of the history of
state `s`, and there are thirteen entries. -/
theorem state_vector_of_histories (h : States (History K)) (k : Nat)
    (hk : ∀ s, k < (field h s).L.length) :
    ∃ l, h.getStateType k = .ok l ∧ l.length = 13 ∧
      ∀ s, ∃ p, (field h s).L[k]? = some p ∧ l[macroIndex 0 s]? = some p.2 := by
  have hg : ∀ s, (field h s).index (k : Int) = .ok ((field h s).L[k]'(hk s)) := by
    intro s
    simp [History.index, getUB, List.getElem?_eq_getElem (hk s)]
  have e_x : h.x.index (k : Int) = .ok (h.x.L[k]'(hk .x)) := hg .x
  have e_y : h.y.index (k : Int) = .ok (h.y.L[k]'(hk .y)) := hg .y
  have e_z : h.z.index (k : Int) = .ok (h.z.L[k]'(hk .z)) := hg .z
  have e_u : h.u.index (k : Int) = .ok (h.u.L[k]'(hk .u)) := hg .u
  have e_v : h.v.index (k : Int) = .ok (h.v.L[k]'(hk .v)) := hg .v
  have e_w : h.w.index (k : Int) = .ok (h.w.L[k]'(hk .w)) := hg .w
  have e_p : h.p.index (k : Int) = .ok (h.p.L[k]'(hk .p)) := hg .p
  have e_q : h.q.index (k : Int) = .ok (h.q.L[k]'(hk .q)) := hg .q
  have e_r : h.r.index (k : Int) = .ok (h.r.L[k]'(hk .r)) := hg .r
  have e_qr : h.qr.index (k : Int) = .ok (h.qr.L[k]'(hk .qr)) := hg .qr
  have e_qi : h.qi.index (k : Int) = .ok (h.qi.L[k]'(hk .qi)) := hg .qi
  have e_qj : h.qj.index (k : Int) = .ok (h.qj.L[k]'(hk .qj)) := hg .qj
  have e_qk : h.qk.index (k : Int) = .ok (h.qk.L[k]'(hk .qk)) := hg .qk
  refine ⟨[(h.x.L[k]'(hk .x)).2, (h.y.L[k]'(hk .y)).2, (h.z.L[k]'(hk .z)).2, (h.u.L[k]'(hk .u)).2, (h.v.L[k]'(hk .v)).2, (h.w.L[k]'(hk .w)).2, (h.p.L[k]'(hk .p)).2, (h.q.L[k]'(hk .q)).2, (h.r.L[k]'(hk .r)).2, (h.qr.L[k]'(hk .qr)).2, (h.qi.L[k]'(hk .qi)).2, (h.qj.L[k]'(hk .qj)).2, (h.qk.L[k]'(hk .qk)).2],
    by simp only [States.getStateType, e_x, e_y, e_z, e_u, e_v, e_w, e_p, e_q, e_r, e_qr, e_qi, e_qj, e_qk, bind, Except.bind, pure, Except.pure], rfl, ?_⟩
  intro s
  refine ⟨(field h s).L[k]'(hk s), List.getElem?_eq_getElem _, ?_⟩
  cases s <;> rfl

/-- Non-trivial instance: bodies 0 and 3, and a history with two samples. -/
example : macroIndex 3 .qk = 51 ∧ macroIndex 0 .qk = 12 ∧ macroIndex 1 .x = 13 := by decide

/-- **C103** `Body::reset_history` empties the histories of the thirteen states and
keeps their lengths. -/
theorem reset_histories_empty {K : Type} [Field K] [LinearOrder K] [IsStrictOrderedRing K]
    (h : States (History K)) :
    let r := h.resetHistories
    (∀ g ∈ [r.x, r.y, r.z, r.u, r.v, r.w, r.p, r.q, r.r, r.qr, r.qi, r.qj, r.qk], g.L = []) ∧
    [r.x, r.y, r.z, r.u, r.v, r.w, r.p, r.q, r.r, r.qr, r.qi, r.qj, r.qk].map History.Tmax =
      [h.x, h.y, h.z, h.u, h.v, h.w, h.p, h.q, h.r, h.qr, h.qi, h.qj, h.qk].map History.Tmax := by
  simp [States.resetHistories, History.reset]

end Xdyn.State

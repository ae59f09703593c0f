import Verif.Props.State
import Verif.Props.History
import Verif.Props.Sim

/-! Property C103: the current states of a body. -/

namespace Xdyn.State

open Spec

variable {K : Type} [Field K] [LinearOrder K] [IsStrictOrderedRing K]

/-- **C103** (first body) The vector given by `get_current_state_values(0)` has thirteen
entries; the entry of each state is its current value. -/
theorem current_state_values (h : States (History K)) (v : StateName → K) (hv : ∀ s, (field h s).value 0 = .ok (v s)) :
    ∃ l, h.currentStateValues 0 = .ok l ∧ l.length = 13 ∧ ∀ s, l[slot 0 s]? = some (v s) := by
  have e_x : h.x.value 0 = .ok (v .x) := hv .x
  have e_y : h.y.value 0 = .ok (v .y) := hv .y
  have e_z : h.z.value 0 = .ok (v .z) := hv .z
  have e_u : h.u.value 0 = .ok (v .u) := hv .u
  have e_v : h.v.value 0 = .ok (v .v) := hv .v
  have e_w : h.w.value 0 = .ok (v .w) := hv .w
  have e_p : h.p.value 0 = .ok (v .p) := hv .p
  have e_q : h.q.value 0 = .ok (v .q) := hv .q
  have e_r : h.r.value 0 = .ok (v .r) := hv .r
  have e_qr : h.qr.value 0 = .ok (v .qr) := hv .qr
  have e_qi : h.qi.value 0 = .ok (v .qi) := hv .qi
  have e_qj : h.qj.value 0 = .ok (v .qj) := hv .qj
  have e_qk : h.qk.value 0 = .ok (v .qk) := hv .qk
  refine ⟨[v .x, v .y, v .z, v .u, v .v, v .w, v .p, v .q, v .r, v .qr, v .qi, v .qj, v .qk], ?_, rfl, ?_⟩
  · simp only [States.currentStateValues, e_x, e_y, e_z, e_u, e_v, e_w, e_p, e_q, e_r, e_qr, e_qi, e_qj, e_qk, bind,
      Except.bind, pure, Except.pure]
    rfl
  · intro s
    cases s <;> rfl

/-- **C103, refuted for the other bodies** `get_current_state_values(idx)` writes out of the
bounds of its vector for every `idx` other than zero. -/
theorem current_state_values_refuted (h : States (History K)) (v : StateName → K) (hv : ∀ s, (field h s).value 0 = .ok (v s))
    (idx : Nat) (hi : idx ≠ 0) : h.currentStateValues idx = .error .ub := by
  have e_x : h.x.value 0 = .ok (v .x) := hv .x
  have : ¬ XIDX idx < 13 := by
    have : 1 ≤ idx := Nat.one_le_iff_ne_zero.2 hi
    simp only [XIDX, nbOfStatesPerBody]; omega
  simp [States.currentStateValues, e_x, setUB, this, bind, Except.bind]

theorem getUB_inv {α : Type} {l : List α} {i : Nat} {a : α} (h : getUB l i = .ok a) : l[i]? = some a := by
  unfold getUB at h
  cases hl : l[i]? with
  | none => rw [hl] at h; cases h
  | some b => rw [hl] at h; cases h; rfl

/-- What `update_body_states` does when it succeeds: each state of the forced state vector is
recorded in its own history. -/
theorem updateBodyStates_inv (ae : Nat → K → K → Bool) (b : Blocked.BlockedDof K) (h h' : States (History K)) (x : List K) (t : K)
    (hu : Sim.updateBodyStates ae b h x t = .ok h') :
    ∃ x', Blocked.forceStates b x t = .ok x' ∧
      ∀ s, ∃ a, x'[slot 0 s]? = some a ∧ (field h s).record ae t a = .ok (field h' s) := by
  unfold Sim.updateBodyStates States.record at hu
  simp only [bind, Except.bind, pure, Except.pure] at hu
  repeat' split at hu
  any_goals cases hu
  rename_i _ x' hx' _ x0 g0 _ x1 g1 _ x2 g2 _ x3 g3 _ x4 g4 _ x5 g5 _ x6 g6 _ x7 g7 _ x8 g8 _ x9 g9 _ x10 g10 _ x11 g11 _ x12 g12 _ r0 k0 _ r1 k1 _ r2 k2 _ r3 k3 _ r4 k4 _ r5 k5 _ r6 k6 _ r7 k7 _ r8 k8 _ r9 k9 _ r10 k10 _ r11 k11 _ r12 k12
  refine ⟨x', hx', ?_⟩
  intro s
  cases s
  · exact ⟨x0, getUB_inv g0, k0⟩
  · exact ⟨x1, getUB_inv g1, k1⟩
  · exact ⟨x2, getUB_inv g2, k2⟩
  · exact ⟨x3, getUB_inv g3, k3⟩
  · exact ⟨x4, getUB_inv g4, k4⟩
  · exact ⟨x5, getUB_inv g5, k5⟩
  · exact ⟨x6, getUB_inv g6, k6⟩
  · exact ⟨x7, getUB_inv g7, k7⟩
  · exact ⟨x8, getUB_inv g8, k8⟩
  · exact ⟨x9, getUB_inv g9, k9⟩
  · exact ⟨x10, getUB_inv g10, k10⟩
  · exact ⟨x11, getUB_inv g11, k11⟩
  · exact ⟨x12, getUB_inv g12, k12⟩

/-- **C103** (round trip) Whatever was recorded before in the histories of the body (any
sequence of records and resets), after a successful update of the body with the state vector
`x` at date `t` the current state vector is `x` with the blocked states replaced by their
prescribed values, provided that the older samples are not within 1E-12 s of the new one. -/
theorem update_then_current (ae : Nat → K → K → Bool) (hae : ∀ n a, ae n a a = true) (Tmax : K)
    (hT : Tmax = 0 ∨ 1 / 10 ^ 12 ≤ Tmax) (b : Blocked.BlockedDof K) (h h' : States (History K)) (x : List K) (t : K)
    (hr : ∀ s, ∃ ops, field h s = History.run ae Tmax ops)
    (hgap : ∀ s, ∀ p ∈ (field h s).L, p.1 = (field h' s).currentTime ∨ p.1 + 1 / 10 ^ 12 ≤ (field h' s).currentTime)
    (hu : Sim.updateBodyStates ae b h x t = .ok h') :
    ∃ x' l, Blocked.forceStates b x t = .ok x' ∧ h'.currentStateValues 0 = .ok l ∧ l.length = 13 ∧
      ∀ s : StateName, l[slot 0 s]? = x'[slot 0 s]? := by
  obtain ⟨x', hx', hs⟩ := updateBodyStates_inv ae b h h' x t hu
  choose a ha hrec using hs
  obtain ⟨l, e, hl, hv⟩ := current_state_values h' a (fun s => by
    obtain ⟨ops, ho⟩ := hr s
    have h1 := hrec s
    have h2 := hgap s
    rw [ho] at h1 h2
    exact History.history_latest_value_partial ae hae Tmax hT ops t (a s) _ h1 h2)
  exact ⟨x', l, hx', e, hl, fun s => by rw [hv s, ha s]⟩

/-- A state vector with thirteen different values is recorded in empty histories and given
back. -/
example : (do
    let h ← Sim.updateBodyStates History.aeQ ⟨fun _ => none, 0, fun _ => none, fun _ => none⟩ (States.newHistories 3)
      ((List.range 13).map (fun i => (i : ℚ))) 2
    h.currentStateValues 0) = .ok ((List.range 13).map (fun i => (i : ℚ))) := by
  decide +kernel

end Xdyn.State

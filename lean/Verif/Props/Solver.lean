import Verif.Model.Solver
import Mathlib.Tactic.Linarith
import Mathlib.Tactic.NormNum
import Mathlib.Algebra.Order.Archimedean.Basic

/-! Property C32: fixed-step simulation grid. -/

namespace Xdyn.Solver

variable {K : Type} [Field K] [LinearOrder K] [IsStrictOrderedRing K] {S O : Type}

/-- The states of a simulation: `traj i` is the state observed at `tstart + i dt`, obtained
from the previous one by a step of length `dt` from `tstart + (i-1) dt` and by forcing the
states, and `obs i` is what is observed. -/
structure Trajectory (sys : System K S O) (s : S) (tstart dt : K) (N : Nat) (traj : Nat → S) (obs : Nat → O) : Prop where
  start : traj 0 = s
  step : ∀ i < N, ∃ s1, sys.doStep (traj i) (tstart + i * dt) dt = .ok s1 ∧
    sys.force s1 (tstart + i * dt) = .ok (traj (i + 1))
  observe : ∀ i ≤ N, sys.observe (traj i) (tstart + i * dt) = .ok (obs i)

theorem loop_ok (sys : System K S O) (tstart tend dt : K) (N : Nat) (traj : Nat → S) (ob : Nat → O)
    (hN : tend ≤ tstart + N * dt) (hlt : ∀ i < N, tstart + (i : K) * dt < tend)
    (hstep : ∀ i < N, ∃ s1, sys.doStep (traj i) (tstart + i * dt) dt = .ok s1 ∧
      sys.force s1 (tstart + i * dt) = .ok (traj (i + 1)))
    (hobs : ∀ i ≤ N, sys.observe (traj i) (tstart + i * dt) = .ok (ob i)) :
    ∀ (fuel k : Nat), k ≤ N → N - k ≤ fuel → ∀ acc,
      loop sys tstart tend dt fuel k (traj k) (tstart + k * dt) acc =
        some (.ok (traj N, acc ++ (List.range' (k + 1) (N - k)).map ob)) := by
  intro fuel
  induction fuel with
  | zero =>
    intro k hk hf acc
    have : k = N := by omega
    subst this
    simp [loop, hN]
  | succ fuel ih =>
    intro k hk hf acc
    unfold loop
    by_cases hkN : k = N
    · subst hkN
      simp [hN]
    · have hk' : k < N := by omega
      obtain ⟨s1, h1, h2⟩ := hstep k hk'
      have h3 := hobs (k + 1) hk'
      simp only [hlt k hk', if_true, h1, h2]
      rw [h3]
      dsimp only
      rw [ih (k + 1) hk' (by omega) (acc ++ [ob (k + 1)])]
      have : N - k = (N - (k + 1)) + 1 := by omega
      rw [this, List.range'_succ]
      simp

/-- **C32** For every system whose steps, forcing and observations succeed (trajectory `traj`),
every `tstart`, `tend` and `dt > 0` (or any `dt` for which `tend` is reached): the simulation
ends, and the observations are exactly the ones at `tstart + i dt`, `i = 0..N`, in order, once
each, where `N` is the first index with `tstart + N dt ≥ tend`; the `i`-th step starts at
`tstart + i dt` with length `dt`. -/
theorem fixed_step_grid (sys : System K S O) (s : S) (tstart tend dt : K) (N : Nat)
    (hN : tend ≤ tstart + N * dt) (hfirst : ∀ i < N, tstart + (i : K) * dt < tend)
    (traj : Nat → S) (obs : Nat → O) (h : Trajectory sys s tstart dt N traj obs) (fuel : Nat) (hf : N ≤ fuel) :
    quicksolve sys fuel s tstart tend dt = some (.ok (traj N, (List.range (N + 1)).map obs)) := by
  have h0 := h.observe 0 (by omega)
  simp only [Nat.cast_zero, zero_mul, add_zero] at h0
  unfold quicksolve
  rw [← h.start, h0]
  have := loop_ok sys tstart tend dt N traj obs hN hfirst h.step h.observe fuel 0 (by omega) (by omega) [obs 0]
  simp only [Nat.cast_zero, zero_mul, add_zero] at this
  dsimp only
  rw [this]
  simp only [List.range_eq_range', Nat.sub_zero, Nat.zero_add, Option.some.injEq, Except.ok.injEq, Prod.mk.injEq,
    true_and]
  rw [List.range'_succ]
  simp

/-- **C32** (existence of the last index) With a positive step the grid always reaches `tend`,
and the last date is less than `dt` after `tend`. -/
theorem fixed_step_last_index [Archimedean K] (tstart tend dt : K) (hdt : 0 < dt) :
    ∃ N : Nat, tend ≤ tstart + N * dt ∧ (∀ i < N, tstart + (i : K) * dt < tend) ∧
      (tstart ≤ tend → tstart + N * dt < tend + dt) := by
  classical
  obtain ⟨n, hn⟩ := Archimedean.arch (tend - tstart) hdt
  have hex : ∃ n : Nat, tend ≤ tstart + n * dt := ⟨n, by rw [nsmul_eq_mul] at hn; linarith⟩
  refine ⟨Nat.find hex, Nat.find_spec hex, fun i hi => not_le.1 (Nat.find_min hex hi), fun hle => ?_⟩
  cases hN : Nat.find hex with
  | zero => simp; linarith
  | succ m =>
    have := not_le.1 (Nat.find_min hex (m := m) (by omega))
    push_cast
    linarith

/-- **C32** (errors) If the trajectory fails at step `m` (in the step, the forcing or the
observation), the simulation ends with that error: it neither goes on nor loops. -/
theorem fixed_step_error (sys : System K S O) (s : S) (tstart tend dt : K) (m : Nat)
    (hlt : ∀ i ≤ m, tstart + (i : K) * dt < tend)
    (traj : Nat → S) (obs : Nat → O) (h : Trajectory sys s tstart dt m traj obs) (e : Err)
    (herr : sys.doStep (traj m) (tstart + m * dt) dt = .error e ∨
      (∃ s1, sys.doStep (traj m) (tstart + m * dt) dt = .ok s1 ∧ sys.force s1 (tstart + m * dt) = .error e) ∨
      (∃ s1 s2, sys.doStep (traj m) (tstart + m * dt) dt = .ok s1 ∧ sys.force s1 (tstart + m * dt) = .ok s2 ∧
        sys.observe s2 (tstart + (m + 1 : Nat) * dt) = .error e))
    (fuel : Nat) (hf : m < fuel) :
    quicksolve sys fuel s tstart tend dt = some (.error e) := by
  have key : ∀ (fuel k : Nat), k ≤ m → m - k < fuel → ∀ acc,
      loop sys tstart tend dt fuel k (traj k) (tstart + k * dt) acc = some (.error e) := by
    intro fuel
    induction fuel with
    | zero => intro k _ hk; omega
    | succ fuel ih =>
      intro k hk hfk acc
      unfold loop
      simp only [hlt k hk, if_true]
      by_cases hkm : k = m
      · subst hkm
        rcases herr with h1 | ⟨s1, h1, h2⟩ | ⟨s1, s2, h1, h2, h3⟩
        · simp [h1]
        · simp [h1, h2]
        · simp only [h1, h2, h3]
      · have hk' : k < m := by omega
        obtain ⟨s1, h1, h2⟩ := h.step k hk'
        have h3 := h.observe (k + 1) hk'
        simp only [h1, h2]
        rw [h3]
        dsimp only
        exact ih (k + 1) hk' (by omega) _
  have h0 := h.observe 0 (by omega)
  simp only [Nat.cast_zero, zero_mul, add_zero] at h0
  unfold quicksolve
  rw [← h.start, h0]
  have := key fuel 0 (by omega) (by omega) [obs 0]
  simp only [Nat.cast_zero, zero_mul, add_zero] at this
  exact this

/-- **C32** (why `dt > 0` is needed) With a null or negative step and `tstart < tend`, a system
that never fails is simulated for ever: no number of iterations is enough. -/
theorem null_step_never_ends (sys : System K S O) (s : S) (tstart tend dt : K) (hdt : dt ≤ 0) (hlt : tstart < tend)
    (hstep : ∀ s t, ∃ s', sys.doStep s t dt = .ok s') (hforce : ∀ s t, ∃ s', sys.force s t = .ok s')
    (hobs : ∀ s t, ∃ o, sys.observe s t = .ok o) (fuel : Nat) :
    quicksolve sys fuel s tstart tend dt = none := by
  have key : ∀ (fuel k : Nat) s acc now, now < tend → loop sys tstart tend dt fuel k s now acc = none := by
    intro fuel
    induction fuel with
    | zero => intro k s acc now h; simp [loop, h]
    | succ fuel ih =>
      intro k s acc now h
      unfold loop
      obtain ⟨s1, h1⟩ := hstep s now
      obtain ⟨s2, h2⟩ := hforce s1 now
      obtain ⟨o, h3⟩ := hobs s2 (tstart + (k + 1 : Nat) * dt)
      simp only [h, if_true, h1, h2, h3]
      refine ih _ _ _ _ ?_
      have : ((k + 1 : Nat) : K) * dt ≤ 0 := mul_nonpos_of_nonneg_of_nonpos (Nat.cast_nonneg _) hdt
      linarith
  obtain ⟨o, h0⟩ := hobs s tstart
  simp only [quicksolve, h0]
  exact key fuel 0 s _ _ hlt

/-- Non-trivial instance: from 1 to 2 by steps of 0.4, counting the steps. -/
example : quicksolve (K := ℚ) (S := Nat) (O := Nat × ℚ)
    ⟨fun n _ _ => .ok (n + 1), fun n _ => .ok n, fun n t => .ok (n, t)⟩ 10 0 1 2 (2 / 5) =
    some (.ok (3, [(0, 1), (1, 7 / 5), (2, 9 / 5), (3, 11 / 5)])) := by
  decide +kernel

/-- Hypotheses of `fixed_step_grid` are met by that instance. -/
example : Trajectory (K := ℚ) (S := Nat) (O := Nat × ℚ)
    ⟨fun n _ _ => .ok (n + 1), fun n _ => .ok n, fun n t => .ok (n, t)⟩ 0 1 (2 / 5) 3 id
    (fun i => (i, 1 + i * (2 / 5))) :=
  ⟨rfl, fun i _ => ⟨i + 1, rfl, rfl⟩, fun i _ => rfl⟩

end Xdyn.Solver

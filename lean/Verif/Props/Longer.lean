import Verif.Model.Solver
import Mathlib.Tactic.NormNum
import Mathlib.Tactic.Common
import Mathlib.Data.Rat.Defs

/-! C219: the results of a longer simulation. -/

namespace Xdyn.Solver

variable {K : Type} [Field K] [LinearOrder K] {S O : Type}

/-- The observations only grow. -/
theorem loop_grows (sys : System K S O) (tstart tend dt : K) : ∀ (fuel i : Nat) (s : S) (now : K) (obs : List O) (s' : S) (obs' : List O),
    loop sys tstart tend dt fuel i s now obs = some (.ok (s', obs')) → obs <+: obs' := by
  intro fuel
  induction fuel with
  | zero =>
    intro i s now obs s' obs' h
    rw [loop] at h
    split at h
    · simp at h
    · simp only [Option.some.injEq, Except.ok.injEq, Prod.mk.injEq] at h
      exact h.2 ▸ List.prefix_rfl
  | succ fuel ih =>
    intro i s now obs s' obs' h
    rw [loop] at h
    split at h
    · split at h
      · simp at h
      · split at h
        · simp at h
        · simp only at h
          split at h
          · simp at h
          · exact (List.prefix_append _ _).trans (ih _ _ _ _ _ _ h)
    · simp only [Option.some.injEq, Except.ok.injEq, Prod.mk.injEq] at h
      exact h.2 ▸ List.prefix_rfl

theorem loop_longer (sys : System K S O) (tstart dt : K) {tend tend' : K} (ht : tend ≤ tend') : ∀ (fuel i : Nat) (s : S) (now : K) (obs : List O) (s' : S) (obs' : List O),
    loop sys tstart tend' dt fuel i s now obs = some (.ok (s', obs')) →
    ∃ s₁ obs₁, loop sys tstart tend dt fuel i s now obs = some (.ok (s₁, obs₁)) ∧ obs₁ <+: obs' := by
  intro fuel
  induction fuel with
  | zero =>
    intro i s now obs s' obs' h
    have hg := loop_grows sys tstart tend' dt 0 i s now obs s' obs' h
    rw [loop] at h
    split at h
    · simp at h
    · rename_i hn
      exact ⟨s, obs, by rw [loop, if_neg (fun h => hn (h.trans_le ht))], hg⟩
  | succ fuel ih =>
    intro i s now obs s' obs' h
    by_cases hn : now < tend
    · rw [loop, if_pos (hn.trans_le ht)] at h
      rw [loop, if_pos hn]
      cases h1 : sys.doStep s now dt with
      | error e => simp [h1] at h
      | ok s1 =>
        simp only [h1] at h ⊢
        cases h2 : sys.force s1 now with
        | error e => simp [h2] at h
        | ok s2 =>
          simp only [h2] at h ⊢
          cases h3 : sys.observe s2 (tstart + ((i + 1 : Nat) : K) * dt) with
          | error e => simp only [h3] at h; simp at h
          | ok o =>
            simp only [h3] at h ⊢
            exact ih _ _ _ _ _ _ h
    · exact ⟨s, obs, by rw [loop, if_neg hn], loop_grows sys tstart tend' dt (fuel + 1) i s now obs s' obs' h⟩

theorem loop_fails (sys : System K S O) (tstart dt : K) {tend tend' : K} (ht : tend ≤ tend') : ∀ (fuel i : Nat) (s : S) (now : K) (obs : List O) (e : Err),
    loop sys tstart tend dt fuel i s now obs = some (.error e) → loop sys tstart tend' dt fuel i s now obs = some (.error e) := by
  intro fuel
  induction fuel with
  | zero =>
    intro i s now obs e h
    rw [loop] at h
    split at h <;> simp at h
  | succ fuel ih =>
    intro i s now obs e h
    by_cases hn : now < tend
    · rw [loop, if_pos hn] at h
      rw [loop, if_pos (hn.trans_le ht)]
      cases h1 : sys.doStep s now dt with
      | error e => simpa [h1] using h
      | ok s1 =>
        simp only [h1] at h ⊢
        cases h2 : sys.force s1 now with
        | error e => simpa [h2] using h
        | ok s2 =>
          simp only [h2] at h ⊢
          cases h3 : sys.observe s2 (tstart + ((i + 1 : Nat) : K) * dt) with
          | error e => simp only [h3] at h ⊢; exact h
          | ok o =>
            simp only [h3] at h ⊢
            exact ih _ _ _ _ _ h
    · rw [loop, if_neg hn] at h
      simp at h

/-- **C219** If the simulation until `tend'` succeeds then so does the simulation until an earlier date, and all that it writes is the beginning of what the
longer one writes. -/
theorem longer_extends (sys : System K S O) (fuel : Nat) (s : S) (tstart dt : K) {tend tend' : K} (ht : tend ≤ tend') (s' : S) (obs' : List O)
    (h : quicksolve sys fuel s tstart tend' dt = some (.ok (s', obs'))) :
    ∃ s₁ obs₁, quicksolve sys fuel s tstart tend dt = some (.ok (s₁, obs₁)) ∧ obs₁ <+: obs' := by
  rw [quicksolve] at h ⊢
  cases h1 : sys.observe s tstart with
  | error e => simp [h1] at h
  | ok o =>
    simp only [h1] at h ⊢
    exact loop_longer sys tstart dt ht _ _ _ _ _ _ _ h

/-- **C219** An error that stops the simulation until `tend` stops the longer ones, with the same message. -/
theorem longer_fails (sys : System K S O) (fuel : Nat) (s : S) (tstart dt : K) {tend tend' : K} (ht : tend ≤ tend') (e : Err)
    (h : quicksolve sys fuel s tstart tend dt = some (.error e)) : quicksolve sys fuel s tstart tend' dt = some (.error e) := by
  rw [quicksolve] at h ⊢
  cases h1 : sys.observe s tstart with
  | error e => simpa [h1] using h
  | ok o =>
    simp only [h1] at h ⊢
    exact loop_fails sys tstart dt ht _ _ _ _ _ _ h

/-- A counter until 3 and until 5, with the step 2: the lines of the first are the beginning of those of the second, although the last step goes beyond `tend`. -/
example : quicksolve (K := ℚ) (S := Nat) (O := Nat × ℚ) ⟨fun s _ _ => .ok (s + 1), fun s _ => .ok s, fun s t => .ok (s, t)⟩ 5 7 0 3 2 = some (.ok (9, [(7, 0), (8, 2), (9, 4)])) ∧
    quicksolve (K := ℚ) (S := Nat) (O := Nat × ℚ) ⟨fun s _ _ => .ok (s + 1), fun s _ => .ok s, fun s t => .ok (s, t)⟩ 5 7 0 5 2 = some (.ok (10, [(7, 0), (8, 2), (9, 4), (10, 6)])) := by
  constructor <;> norm_num [quicksolve, loop]

end Xdyn.Solver

/-
Proofs about the force of a maneuvering model (C159).
-/
import Verif.Model.ManeuveringForce
import Verif.Spec.ManeuveringForce
import Verif.Props.Maneuvering

namespace Xdyn.Maneuvering
open Spec

variable {D : Type}

theorem lookup_map_snd {α β γ : Type} [BEq α] (f : β → γ) (l : List (α × β)) (a : α) :
    (l.map (fun p => (p.1, f p.2))).lookup a = (l.lookup a).map f := by
  induction l with
  | nil => rfl
  | cons p l ih =>
    obtain ⟨x, y⟩ := p
    simp only [List.map_cons, List.lookup, ih]
    cases a == x <;> rfl

theorem lookup_iff_mem {α β : Type} [BEq α] [LawfulBEq α] {l : List (α × β)} (h : (l.map Prod.fst).Nodup) (a : α) (b : β) :
    l.lookup a = some b ↔ (a, b) ∈ l := by
  induction l with
  | nil => simp
  | cons p l ih =>
    simp only [List.map_cons, List.nodup_cons] at h
    obtain ⟨x, y⟩ := p
    simp only [List.lookup]
    by_cases hp : a = x
    · subst hp
      simp only [beq_self_eq_true, Option.some.injEq, List.mem_cons]
      constructor
      · rintro rfl; exact .inl rfl
      · rintro (h' | h')
        · rw [Prod.mk.injEq] at h'; exact h'.2.symm
        · exact absurd (List.mem_map_of_mem (f := Prod.fst) h') h.1
    · have : (a == x) = false := by simpa using hp
      simp only [this, ih h.2, List.mem_cons]
      constructor
      · exact .inr
      · rintro (h' | h')
        · rw [Prod.mk.injEq] at h'; exact absurd h'.1 hp
        · exact h'

section
variable (A : Arith D) (fmt : Text → Text) (exprs : List (Text × Text)) (set : List (Text × D)) (t : D)
  (state : StateType → D → Except String D)

/-- the value of a name, as computed by the data source -/
abbrev sig (k : Nat) : Text → Except String D := signal A (compileAll fmt exprs) set t state k

theorem sig_set {n : Text} {v : D} (h : set.lookup n = some v) (k : Nat) : sig A fmt exprs set t state (k + 1) n = .ok v := by
  simp only [sig, signal, h]

theorem sig_def {n s : Text} (h : set.lookup n = none) (hs : exprs.lookup n = some s) (k : Nat) :
    sig A fmt exprs set t state (k + 1) n = (compile fmt s).eval A ⟨t, state, sig A fmt exprs set t state k⟩ := by
  simp only [sig, signal, h, compileAll, lookup_map_snd, hs, Option.map_some]

theorem sig_none {n : Text} (h : set.lookup n = none) (hs : exprs.lookup n = none) (k : Nat) :
    sig A fmt exprs set t state (k + 1) n = .error "no such signal" := by
  simp only [sig, signal, h, compileAll, lookup_map_snd, hs, Option.map_none]

/-- Every value of the specification is computed. -/
theorem sig_complete (hd : ∀ n s, exprs.lookup n = some s → set.lookup n = none) (q : Query) (v : D)
    (h : Means A (fun n v => set.lookup n = some v) (fun n s => exprs.lookup n = some s) t state q v) :
    ∃ k, ∀ k', k ≤ k' → match q with
      | .expr e => (nodeE fmt e).eval A ⟨t, state, sig A fmt exprs set t state k'⟩ = .ok v
      | .name n => sig A fmt exprs set t state k' n = .ok v := by
  induction h with
  | num l => exact ⟨0, fun _ _ => rfl⟩
  | time => exact ⟨0, fun _ _ => rfl⟩
  | name n v hn _ ih =>
    obtain ⟨k, ih⟩ := ih
    refine ⟨k, fun k' hk => ?_⟩
    have : n ≠ "t".toList := hn
    simp only [nodeE, if_neg this, Node.eval]
    exact ih k' hk
  | fn f g a v hf _ ih =>
    obtain ⟨k, ih⟩ := ih
    refine ⟨k, fun k' hk => ?_⟩
    simp only [nodeE, (callNode_known f _ _).2.1 g hf, Node.eval, ih k' hk, Except.map]
  | state f s a v w hf _ hw ih =>
    obtain ⟨k, ih⟩ := ih
    refine ⟨k, fun k' hk => ?_⟩
    simp only [nodeE, (callNode_known f _ _).2.2 s hf, Node.eval, ih k' hk, hw]
  | command f n v hf _ ih =>
    obtain ⟨k, ih⟩ := ih
    refine ⟨k, fun k' hk => ?_⟩
    simp only [nodeE, (callNode_known f _ _).1 hf, Node.eval]
    exact ih k' hk
  | add a b v w _ _ iha ihb =>
    obtain ⟨k, iha⟩ := iha
    obtain ⟨l, ihb⟩ := ihb
    exact ⟨max k l, fun k' hk => by
      simp only [nodeE, Node.eval, iha k' (by omega), ihb k' (by omega), Except.map]; rfl⟩
  | sub a b v w _ _ iha ihb =>
    obtain ⟨k, iha⟩ := iha
    obtain ⟨l, ihb⟩ := ihb
    exact ⟨max k l, fun k' hk => by
      simp only [nodeE, Node.eval, iha k' (by omega), ihb k' (by omega), Except.map]; rfl⟩
  | mul a b v w _ _ iha ihb =>
    obtain ⟨k, iha⟩ := iha
    obtain ⟨l, ihb⟩ := ihb
    exact ⟨max k l, fun k' hk => by
      simp only [nodeE, Node.eval, iha k' (by omega), ihb k' (by omega), Except.map]; rfl⟩
  | div a b v w _ _ iha ihb =>
    obtain ⟨k, iha⟩ := iha
    obtain ⟨l, ihb⟩ := ihb
    exact ⟨max k l, fun k' hk => by
      simp only [nodeE, Node.eval, iha k' (by omega), ihb k' (by omega), Except.map]; rfl⟩
  | pow a b v w _ _ iha ihb =>
    obtain ⟨k, iha⟩ := iha
    obtain ⟨l, ihb⟩ := ihb
    exact ⟨max k l, fun k' hk => by
      simp only [nodeE, Node.eval, iha k' (by omega), ihb k' (by omega), Except.map]; rfl⟩
  | given n v hg =>
    refine ⟨1, fun k' hk => ?_⟩
    obtain ⟨j, rfl⟩ : ∃ j, k' = j + 1 := ⟨k' - 1, by omega⟩
    exact sig_set A fmt exprs set t state hg j
  | defined n s b e v hs hw hb _ ih =>
    obtain ⟨k, ih⟩ := ih
    refine ⟨k + 1, fun k' hk => ?_⟩
    obtain ⟨j, rfl⟩ : ∃ j, k' = j + 1 := ⟨k' - 1, by omega⟩
    simp only
    rw [sig_def A fmt exprs set t state (hd n _ hs) hs j, compile_writes fmt s b e hw hb]
    exact ih j (by omega)

theorem eval_bin_inv {env : Env D} {o : Op} {a b : Node} {v : D} (h : (Node.bin o a b).eval A env = .ok v) :
    ∃ x y, a.eval A env = .ok x ∧ b.eval A env = .ok y ∧ v = A.op o x y := by
  simp only [Node.eval] at h
  cases ha : a.eval A env with
  | error e => simp [ha] at h
  | ok x =>
    cases hb : b.eval A env with
    | error e => simp [ha, hb, Except.map] at h
    | ok y =>
      simp only [ha, hb, Except.map, Except.ok.injEq] at h
      exact ⟨x, y, rfl, rfl, h.symm⟩

/-- Every value computed is a value of the specification. -/
theorem sig_sound (used : Text → Prop) (hw : ∀ n s, exprs.lookup n = some s → used n → WellWritten used s) (k : Nat) (n : Text)
    (v : D) (hu : used n) (h : sig A fmt exprs set t state k n = .ok v) :
    Means A (fun n v => set.lookup n = some v) (fun n s => exprs.lookup n = some s) t state (.name n) v := by
  induction k generalizing n v with
  | zero => simp [sig, signal] at h
  | succ k ih =>
    cases hs : set.lookup n with
    | some w =>
      rw [sig_set A fmt exprs set t state hs] at h
      exact .given n v (by rw [hs]; simpa using h)
    | none =>
      cases he : exprs.lookup n with
      | none =>
        rw [sig_none A fmt exprs set t state hs he] at h
        simp at h
      | some s =>
        obtain ⟨s', b, e, rfl, hwr, hb, hp, hu'⟩ := hw n s he hu
        rw [sig_def A fmt exprs set t state hs he, compile_writes fmt s' b e hwr hb] at h
        refine .defined n s' b e v he hwr hb ?_
        clear he hwr hs
        induction e generalizing v with
        | num l =>
          simp only [nodeE, Node.eval, Except.ok.injEq] at h
          rw [← h]; exact .num l
        | name m =>
          by_cases hm : m = ['t']
          · subst hm
            rw [show nodeE fmt (.name ['t']) = .time from rfl] at h
            simp only [Node.eval, Except.ok.injEq] at h
            rw [← h]; exact .time
          · have : m ≠ "t".toList := hm
            simp only [nodeE, if_neg this, Node.eval] at h
            exact .name m v hm (ih m v (hu' m (by simp [E.names, hm])) h)
        | call f a iha =>
          obtain ⟨h0, h1, h2⟩ := callNode_known f (nodeE fmt a) (printE fmt (.call f a))
          obtain ⟨hpa, hpn⟩ := hp
          cases hc : callees.lookup (String.ofList f) with
          | none =>
            obtain ⟨m, rfl⟩ := hpn hc
            simp only [nodeE] at h h0
            rw [h0 hc] at h
            exact .command f m v hc (ih _ v (hu' _ (by simp [E.names, hc])) h)
          | some c =>
            cases c with
            | fn g =>
              simp only [nodeE] at h
              rw [h1 g hc] at h
              simp only [Node.eval] at h
              cases ha : (nodeE fmt a).eval A ⟨t, state, sig A fmt exprs set t state k⟩ with
              | error e => simp [ha, Except.map] at h
              | ok w =>
                simp only [ha, Except.map, Except.ok.injEq] at h
                rw [← h]
                exact .fn f g a w hc (iha w ha hpa (fun m hm => hu' m (by simpa [E.names, hc] using hm)))
            | state st =>
              simp only [nodeE] at h
              rw [h2 st hc] at h
              simp only [Node.eval] at h
              cases ha : (nodeE fmt a).eval A ⟨t, state, sig A fmt exprs set t state k⟩ with
              | error e => simp [ha] at h
              | ok w =>
                simp only [ha] at h
                exact .state f st a w v hc (iha w ha hpa (fun m hm => hu' m (by simpa [E.names, hc] using hm))) h
        | add a b iha ihb =>
          obtain ⟨x, y, hx, hy, rfl⟩ := eval_bin_inv A h
          exact .add a b x y (iha x hx hp.1 (fun m hm => hu' m (by simp [E.names, hm])))
            (ihb y hy hp.2 (fun m hm => hu' m (by simp [E.names, hm])))
        | sub a b iha ihb =>
          obtain ⟨x, y, hx, hy, rfl⟩ := eval_bin_inv A h
          exact .sub a b x y (iha x hx hp.1 (fun m hm => hu' m (by simp [E.names, hm])))
            (ihb y hy hp.2 (fun m hm => hu' m (by simp [E.names, hm])))
        | mul a b iha ihb =>
          obtain ⟨x, y, hx, hy, rfl⟩ := eval_bin_inv A h
          exact .mul a b x y (iha x hx hp.1 (fun m hm => hu' m (by simp [E.names, hm])))
            (ihb y hy hp.2 (fun m hm => hu' m (by simp [E.names, hm])))
        | div a b iha ihb =>
          obtain ⟨x, y, hx, hy, rfl⟩ := eval_bin_inv A h
          exact .div a b x y (iha x hx hp.1 (fun m hm => hu' m (by simp [E.names, hm])))
            (ihb y hy hp.2 (fun m hm => hu' m (by simp [E.names, hm])))
        | pow a b iha ihb =>
          obtain ⟨x, y, hx, hy, rfl⟩ := eval_bin_inv A h
          exact .pow a b x y (iha x hx hp.1 (fun m hm => hu' m (by simp [E.names, hm])))
            (ihb y hy hp.2 (fun m hm => hu' m (by simp [E.names, hm])))

end

/-- the names of the six components of the force of a maneuvering model -/
def components : Fin 6 → Text := ![['X'], ['Y'], ['Z'], ['K'], ['M'], ['N']]

/-- what the input file, the environment and the commands say about a name -/
def Given (c : Constants D) (t : D) (commands : List (Text × D)) (n : Text) (v : D) : Prop :=
  (n, v) ∈ commands ∨ (n = "g".toList ∧ v = c.g) ∨ (n = "nu".toList ∧ v = c.nu) ∨ (n = "rho".toList ∧ v = c.rho) ∨ (n = "t".toList ∧ v = t)

theorem setSignals_lookup (c : Constants D) (t : D) (commands : List (Text × D))
    (h : (commands.map Prod.fst ++ ["t".toList, "rho".toList, "nu".toList, "g".toList]).Nodup) (n : Text) (v : D) :
    (setSignals c t commands).lookup n = some v ↔ Given c t commands n v := by
  have hn : ((setSignals c t commands).map Prod.fst).Nodup := by
    unfold setSignals
    rw [List.map_append, List.map_reverse]
    refine ((List.reverse_perm _).append_right _).nodup_iff.mpr ?_
    exact h
  rw [lookup_iff_mem hn]
  simp only [setSignals, Given, List.mem_append, List.mem_reverse, List.mem_cons, Prod.mk.injEq, List.not_mem_nil, or_false]
  constructor
  · rintro (h | h | h | h | h)
    · exact .inl h
    · exact .inr (.inr (.inr (.inr h)))
    · exact .inr (.inr (.inr (.inl h)))
    · exact .inr (.inr (.inl h))
    · exact .inr (.inl h)
  · rintro (h | h | h | h | h)
    · exact .inl h
    · exact .inr (.inr (.inr (.inr h)))
    · exact .inr (.inr (.inr (.inl h)))
    · exact .inr (.inr (.inl h))
    · exact .inr (.inl h)

theorem means_congr (A : Arith D) {g g' : Text → D → Prop} {d d' : Text → Text → Prop} (t : D) (state : StateType → D → Except String D)
    (hg : ∀ n v, g n v → g' n v) (hd : ∀ n s, d n s → d' n s) {q : Query} {v : D} (h : Means A g d t state q v) :
    Means A g' d' t state q v := by
  induction h with
  | num l => exact .num l
  | time => exact .time
  | name n v hn _ ih => exact .name n v hn ih
  | fn f g a v hf _ ih => exact .fn f g a v hf ih
  | state f s a v w hf _ hw ih => exact .state f s a v w hf ih hw
  | command f n v hf _ ih => exact .command f n v hf ih
  | add a b v w _ _ iha ihb => exact .add a b v w iha ihb
  | sub a b v w _ _ iha ihb => exact .sub a b v w iha ihb
  | mul a b v w _ _ iha ihb => exact .mul a b v w iha ihb
  | div a b v w _ _ iha ihb => exact .div a b v w iha ihb
  | pow a b v w _ _ iha ihb => exact .pow a b v w iha ihb
  | given n v h => exact .given n v (hg n v h)
  | defined n s b e v hs hw hb _ ih => exact .defined n s b e v (hd _ _ hs) hw hb ih

/-- Every value of the specification is computed, whatever the other texts. -/
theorem signal_of_means (A : Arith D) (fmt : Text → Text) (exprs : List (Text × Text)) (c : Constants D) (t : D) (commands : List (Text × D))
    (state : StateType → D → Except String D)
    (hn : (exprs.map Prod.fst ++ (commands.map Prod.fst ++ ["t".toList, "rho".toList, "nu".toList, "g".toList])).Nodup)
    (n : Text) (v : D) (h : Means A (Given c t commands) (fun n s => (n, s) ∈ exprs) t state (.name n) v) :
    ∃ k, ∀ k', k ≤ k' → signal A (compileAll fmt exprs) (setSignals c t commands) t state k' n = .ok v := by
  have h1 : (exprs.map Prod.fst).Nodup := (List.nodup_append.mp hn).1
  have h2 := (List.nodup_append.mp hn).2.1
  have hl : ∀ n s, exprs.lookup n = some s ↔ (n, s) ∈ exprs := fun n s => lookup_iff_mem h1 n s
  have hs := setSignals_lookup c t commands h2
  have h' := means_congr A t state (fun n v h => (hs n v).mpr h) (fun n s h => (hl n s).mpr h) h
  exact sig_complete A fmt exprs (setSignals c t commands) t state (fun n s h => by
    cases hx : (setSignals c t commands).lookup n with
    | none => rfl
    | some w =>
      exfalso
      have hd := (List.nodup_append.mp hn).2.2
      have ha : n ∈ exprs.map Prod.fst := List.mem_map.mpr ⟨(n, s), (hl n s).mp h, rfl⟩
      rcases (hs n w).mp hx with hc | hc | hc | hc | hc
      · exact hd n ha n (by simp only [List.mem_append]; exact .inl (List.mem_map.mpr ⟨(n, w), hc, rfl⟩)) rfl
      all_goals
        rw [hc.1] at ha
        exact hd _ ha _ (by simp) rfl) _ _ h'

/-- The signals of a maneuvering model, in terms of the keys of the input file and of the commands. -/
theorem signal_iff (A : Arith D) (fmt : Text → Text) (exprs : List (Text × Text)) (c : Constants D) (t : D) (commands : List (Text × D))
    (state : StateType → D → Except String D)
    (hn : (exprs.map Prod.fst ++ (commands.map Prod.fst ++ ["t".toList, "rho".toList, "nu".toList, "g".toList])).Nodup)
    (used : Text → Prop) (hw : ∀ p ∈ exprs, used p.1 → WellWritten used p.2) (n : Text) (hu : used n) (v : D) :
    (∃ k, ∀ k', k ≤ k' → signal A (compileAll fmt exprs) (setSignals c t commands) t state k' n = .ok v) ↔
      Means A (Given c t commands) (fun n s => (n, s) ∈ exprs) t state (.name n) v := by
  have h1 : (exprs.map Prod.fst).Nodup := (List.nodup_append.mp hn).1
  have h2 := (List.nodup_append.mp hn).2.1
  have hl : ∀ n s, exprs.lookup n = some s ↔ (n, s) ∈ exprs := fun n s => lookup_iff_mem h1 n s
  have hs := setSignals_lookup c t commands h2
  constructor
  · rintro ⟨k, hk⟩
    have := sig_sound A fmt exprs (setSignals c t commands) t state used (fun n s h => hw (n, s) ((hl n s).mp h)) k n v hu (hk k le_rfl)
    exact means_congr A t state (fun n v h => (hs n v).mp h) (fun n s h => (hl n s).mp h) this
  · exact signal_of_means A fmt exprs c t commands state hn n v

theorem bind_ok_iff {α β : Type} (x : Except String α) (f : α → Except String β) (b : β) :
    (x >>= f) = .ok b ↔ ∃ a, x = .ok a ∧ f a = .ok b := by
  cases x <;> simp [bind, Except.bind]

/-- **C159** The force of a maneuvering model. The keys of the input file, the commands and the constants have different names,
and the texts of the keys that are `used` (the six components, and closed under reference: all the keys but `name` and `model`,
for instance) are well written. Then, for every arithmetic, every date and every history of the states, the computation ends with
the force `F` if and only if each component of `F` is the value of the expression of that name, in which every name stands for the
value of its own expression, of the command or of the constant. (No force is returned if a component or a name is missing, if a
name depends on itself or if a state cannot be read.) -/
theorem maneuvering_force (A : Arith D) (fmt : Text → Text) (exprs : List (Text × Text)) (c : Constants D) (t : D)
    (commands : List (Text × D)) (state : StateType → D → Except String D)
    (hn : (exprs.map Prod.fst ++ (commands.map Prod.fst ++ ["t".toList, "rho".toList, "nu".toList, "g".toList])).Nodup)
    (used : Text → Prop) (hu : ∀ i, used (components i)) (hw : ∀ p ∈ exprs, used p.1 → WellWritten used p.2) (F : Fin 6 → D) :
    (∃ k, ∀ k', k ≤ k' → getForce A (compileAll fmt exprs) c k' state t commands = .ok F) ↔
      ∀ i, Means A (Given c t commands) (fun n s => (n, s) ∈ exprs) t state (.name (components i)) (F i) := by
  have h := fun i => signal_iff A fmt exprs c t commands state hn used hw (components i) (hu i)
  have hk : ∀ k, getForce A (compileAll fmt exprs) c k state t commands = .ok F ↔
      ∀ i, signal A (compileAll fmt exprs) (setSignals c t commands) t state k (components i) = .ok (F i) := by
    intro k
    simp only [getForce, bind_ok_iff, Except.ok.injEq]
    constructor
    · rintro ⟨x, hx, y, hy, z, hz, kk, hkk, m, hm, n, hn, rfl⟩ i
      fin_cases i <;> assumption
    · intro h
      refine ⟨_, h 0, _, h 1, _, h 2, _, h 3, _, h 4, _, h 5, ?_⟩
      funext i
      fin_cases i <;> rfl
  constructor
  · rintro ⟨k, hk'⟩ i
    exact (h i _).mp ⟨k, fun k' hle => (hk k').mp (hk' k' hle) i⟩
  · intro hm
    choose k hk' using fun i => (h i _).mpr (hm i)
    refine ⟨max (max (max (k 0) (k 1)) (max (k 2) (k 3))) (max (k 4) (k 5)), fun k' hle => (hk k').mpr fun i => hk' i k' ?_⟩
    have : k i ≤ max (max (max (k 0) (k 1)) (max (k 2) (k 3))) (max (k 4) (k 5)) := by fin_cases i <;> simp
    omega

/-- The value of a name is unique. -/
theorem means_unique (A : Arith D) (exprs : List (Text × Text)) (c : Constants D) (t : D) (commands : List (Text × D))
    (state : StateType → D → Except String D)
    (hn : (exprs.map Prod.fst ++ (commands.map Prod.fst ++ ["t".toList, "rho".toList, "nu".toList, "g".toList])).Nodup)
    (n : Text) (v w : D) (hv : Means A (Given c t commands) (fun n s => (n, s) ∈ exprs) t state (.name n) v)
    (hw : Means A (Given c t commands) (fun n s => (n, s) ∈ exprs) t state (.name n) w) : v = w := by
  obtain ⟨k, hk⟩ := signal_of_means A id exprs c t commands state hn n v hv
  obtain ⟨l, hl⟩ := signal_of_means A id exprs c t commands state hn n w hw
  have h1 := hk (max k l) (le_max_left _ _)
  rw [hl (max k l) (le_max_right _ _)] at h1
  exact (Except.ok.inj h1).symm

/-- **C159** A maneuvering model in which one of the six components is neither a key of the file nor a command is never evaluated:
an exception is thrown whatever the states, the date and the number of nested evaluations. -/
theorem missing_component (A : Arith D) (fmt : Text → Text) (exprs : List (Text × Text)) (c : Constants D) (k : Nat)
    (state : StateType → D → Except String D) (t : D) (commands : List (Text × D)) (i : Fin 6)
    (he : components i ∉ exprs.map Prod.fst) (hc : components i ∉ commands.map Prod.fst) :
    ∃ e, getForce A (compileAll fmt exprs) c k state t commands = .error e := by
  cases h : getForce A (compileAll fmt exprs) c k state t commands with
  | error e => exact ⟨e, rfl⟩
  | ok F =>
    exfalso
    have hl : ∀ {β : Type} (l : List (Text × β)), components i ∉ l.map Prod.fst → l.lookup (components i) = none := by
      intro β l hl
      rw [List.lookup_eq_none_iff]
      intro p hp
      have : components i ≠ p.1 := fun e => hl (by rw [e]; exact List.mem_map_of_mem hp)
      simpa using this
    have hs : ∀ k v, signal A (compileAll fmt exprs) (setSignals c t commands) t state k (components i) ≠ .ok v := by
      intro k v h'
      cases k with
      | zero => simp [signal] at h'
      | succ k =>
        have h1 : (setSignals c t commands).lookup (components i) = none := by
          refine hl _ ?_
          simp only [setSignals, List.map_append, List.map_reverse, List.mem_append, List.mem_reverse, not_or]
          refine ⟨hc, ?_⟩
          have : ∀ i, components i ∉ ["t".toList, "rho".toList, "nu".toList, "g".toList] := by decide
          exact this i
        have := sig_none A fmt exprs (setSignals c t commands) t state h1 (hl exprs he) k
        rw [sig] at this
        rw [this] at h'
        cases h'
    simp only [getForce, bind_ok_iff] at h
    obtain ⟨x, hx, y, hy, z, hz, kk, hkk, m, hm, n, hn, -⟩ := h
    fin_cases i
    · exact hs k x hx
    · exact hs k y hy
    · exact hs k z hz
    · exact hs k kk hkk
    · exact hs k m hm
    · exact hs k n hn

/-! ### Example -/

/-- integers, for examples -/
def intArith : Arith Int where
  lit := fun l => l.foldl (fun a c => 10 * a + ((c.toNat : Int) - 48)) 0
  nan := 0
  add := (· + ·)
  sub := (· - ·)
  mul := (· * ·)
  div := (· / ·)
  pow := fun a b => a ^ b.toNat
  fn := fun _ a => a

def demoExprs : List (Text × Text) :=
  [("name".toList, "test 3/".toList), ("X".toList, "a*u(t) + prop(rpm)".toList), ("Y".toList, "a^2".toList), ("Z".toList, "g ".toList),
   ("K".toList, "0".toList), ("M".toList, "0".toList), ("N".toList, "r(t-2)".toList), ("a".toList, "b + 1".toList)]

/-- the states of the example: u is 5 and r is ten times the delay -/
def demoState : StateType → Int → Except String Int
  | .U, _ => .ok 5
  | .R, d => .ok (10 * d)
  | _, _ => .error "no"

def demoCommands : List (Text × Int) := [("b".toList, 3), ("prop(rpm)".toList, 100)]

example : (match getForce intArith (compileAll id demoExprs) ⟨9, 1, 2⟩ 5 demoState 7 demoCommands with
    | .ok F => [F 0, F 1, F 2, F 3, F 4, F 5] == [120, 16, 9, 0, 0, 20]
    | .error _ => false) = true := by decide +kernel

theorem demo_hypotheses : (demoExprs.map Prod.fst ++ (demoCommands.map Prod.fst ++ ["t".toList, "rho".toList, "nu".toList, "g".toList])).Nodup ∧
    (∀ p ∈ demoExprs, p.1 ≠ "name".toList → WellWritten (· ≠ "name".toList) p.2) ∧ ∀ i, components i ≠ "name".toList := by
  refine ⟨by decide +kernel, ?_, fun i => by fin_cases i <;> decide⟩
  have w : ∀ (s : Text) (e : E), (phraseParse s).map (fun x => (absExpr x.1, x.2)) = some (e, []) → e.Plain → (∀ n ∈ e.names, n ≠ "name".toList) →
      WellWritten (· ≠ "name".toList) s := fun s e h hp hn => ⟨s, [], e, by simp, writes_of_parse s e h, by simp [Blanks], hp, hn⟩
  intro p hp
  simp only [demoExprs, List.mem_cons, List.not_mem_nil, or_false] at hp
  rcases hp with rfl | rfl | rfl | rfl | rfl | rfl | rfl | rfl
  · exact fun h => absurd rfl h
  · exact fun _ => w _ (.add (.mul (.name "a".toList) (.call "u".toList (.name "t".toList))) (.call "prop".toList (.name "rpm".toList)))
      (by decide +kernel) ⟨⟨trivial, trivial, fun _ => ⟨_, rfl⟩⟩, trivial, fun _ => ⟨_, rfl⟩⟩ (by decide +kernel)
  · exact fun _ => w _ (.pow (.name "a".toList) (.num "2".toList)) (by decide +kernel) ⟨trivial, trivial⟩ (by decide +kernel)
  · exact fun _ => ⟨"g".toList, " ".toList, .name "g".toList, by decide, writes_of_parse _ _ (by decide +kernel), by simp [Blanks], trivial,
      by decide +kernel⟩
  · exact fun _ => w _ (.num "0".toList) (by decide +kernel) trivial (by decide +kernel)
  · exact fun _ => w _ (.num "0".toList) (by decide +kernel) trivial (by decide +kernel)
  · exact fun _ => w _ (.call "r".toList (.sub (.name "t".toList) (.num "2".toList))) (by decide +kernel)
      ⟨⟨trivial, trivial⟩, fun h => absurd h (by decide +kernel)⟩ (by decide +kernel)
  · exact fun _ => w _ (.add (.name "b".toList) (.num "1".toList)) (by decide +kernel) ⟨trivial, trivial⟩ (by decide +kernel)

/-- A name that depends on itself has no value: the computation of the force never ends with a value. -/
theorem circular : ∀ k, signal intArith (compileAll id [("X".toList, "X + 1".toList)]) (setSignals ⟨9, 1, 2⟩ 0 []) 0 demoState k "X".toList =
    .error "too many nested evaluations" := by
  intro k
  induction k with
  | zero => rfl
  | succ k ih =>
    have h := sig_def intArith id [("X".toList, "X + 1".toList)] (setSignals ⟨9, 1, 2⟩ 0 []) 0 demoState
      (n := "X".toList) (s := "X + 1".toList) (by decide +kernel) (by decide +kernel) k
    rw [sig] at h
    rw [h, show compile id "X + 1".toList = .bin .sum (.unknown "X".toList) (.constant "1".toList) from by decide +kernel]
    simp only [Node.eval, ih, sig]

end Xdyn.Maneuvering

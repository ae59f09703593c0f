import Verif.Spec.Chain
import Verif.Props.StationKeeping
import Verif.Props.Cosim
import Mathlib.Data.List.Forall2

/-! Property C185: a simulation cut into co-simulation requests. -/

namespace Xdyn.Server

open Xdyn.Sim Blocked Body Spec Solver

section
variable {K : Type} [Field K] [LinearOrder K] [IsStrictOrderedRing K] {Γ E : Type}

theorem before_new (n : StateName) (t : K) : Before (field (States.newHistories (0 : K)) n) t := by
  have e : field (States.newHistories (0 : K)) n = History.new 0 := by cases n <;> rfl
  rw [e]
  exact ⟨History.inv_new 0, le_rfl, fun b hb => by simp [History.new] at hb⟩

theorem one_sample {h : History K} (hi : h.Inv) (h0 : h.Tmax = 0) {b : K × K} (hb : h.L.getLast? = some b) : h.L = [b] := by
  have key : ∀ p ∈ h.L, p.1 = h.oldest := fun p hp =>
    le_antisymm (by have := hi.window p hp; rw [h0] at this; linarith) (hi.oldest_le p hp)
  match hL : h.L with
  | [] => rw [hL] at hb; cases hb
  | [a] => rw [hL] at hb; cases hb; rfl
  | a :: c :: l =>
    have h1 : a.1 < c.1 := by
      have := hi.sorted
      rw [hL, History.Sorted, List.pairwise_cons] at this
      exact this.1 c (by simp)
    rw [hL] at key
    rw [key a (by simp), key c (by simp)] at h1
    exact absurd h1 (lt_irrefl _)

/-- The inputs built from a request whose dates do not decrease, when no force model uses the past. -/
theorem ofYaml_ok (ae : Nat → K → K → Bool) (hae : ∀ n a, ae n a a = true) (Dt : K) (cmd : Commands K)
    (past : List (YamlState K)) (last : YamlState K) (hd : List.Pairwise (fun a b => a.t ≤ b.t) (past ++ [last])) :
    ∃ inp, Inputs.ofYaml ae { Dt := Dt, states := past ++ [last], commands := cmd } 0 = .ok inp ∧ inp.t = last.t ∧ inp.Dt = Dt ∧
      inp.commands = cmd ∧ (∀ n, Before (field inp.fullHistory n) last.t ∧ (field inp.fullHistory n).Tmax = 0) ∧
      inp.fullHistory.x.L.length = 1 ∧ inp.fullHistory.getStateType 0 = .ok (stateAt last) := by
  have hfold : ∀ (l : List (YamlState K)) (h : States (History K) × States (History K)) (tl : K),
      List.Pairwise (fun a b => a.t ≤ b.t) l → (∀ y ∈ l, y.t ≤ tl) →
      (∀ y ∈ l, ∀ n, Before (field h.1 n) y.t ∧ Before (field h.2 n) y.t) →
      (∀ n, Before (field h.1 n) tl ∧ Before (field h.2 n) tl ∧ (field h.1 n).Tmax = 0 ∧ (field h.2 n).Tmax = 0) →
      ∃ h', l.foldlM (fun (h : States (History K) × States (History K)) s => do
          let h1 ← h.1.record ae s
          let h2 ← h.2.record ae s
          return (h1, h2)) h = .ok h' ∧
        ∀ n, Before (field h'.2 n) tl ∧ (field h'.2 n).Tmax = 0 := by
    intro l
    induction l with
    | nil => intro h tl _ _ _ hb; exact ⟨h, rfl, fun n => ⟨(hb n).2.1, (hb n).2.2.2⟩⟩
    | cons y l ih =>
      intro h tl hp hl hb ht
      obtain ⟨h1, e1, b1, -⟩ := record_all ae hae h.1 y (fun n => (hb y (by simp) n).1)
      obtain ⟨h2, e2, b2, -⟩ := record_all ae hae h.2 y (fun n => (hb y (by simp) n).2)
      rw [List.pairwise_cons] at hp
      obtain ⟨h', e', b'⟩ := ih (h1, h2) tl hp.2 (fun z hz => hl z (by simp [hz]))
        (fun z hz n => ⟨(b1 n).1.mono (hp.1 z hz), (b2 n).1.mono (hp.1 z hz)⟩)
        (fun n => ⟨(b1 n).1.mono (hl y (by simp)), (b2 n).1.mono (hl y (by simp)), by rw [(b1 n).2.1]; exact (ht n).2.2.1,
          by rw [(b2 n).2.1]; exact (ht n).2.2.2⟩)
      refine ⟨h', ?_, b'⟩
      simp only [List.foldlM_cons, e1, e2, bind, Except.bind, pure, Except.pure] at e' ⊢
      exact e'
  rw [List.pairwise_append] at hd
  have tmax0 : ∀ n : StateName, (field (States.newHistories (0 : K)) n).Tmax = 0 := fun n => by cases n <;> rfl
  obtain ⟨h', e', b'⟩ := hfold past (States.newHistories 0, States.newHistories 0) last.t hd.1
    (fun y hy => hd.2.2 y hy last (by simp)) (fun y _ n => ⟨before_new n _, before_new n _⟩)
    (fun n => ⟨before_new n _, before_new n _, tmax0 n, tmax0 n⟩)
  obtain ⟨full, ef, bf, lf⟩ := record_all ae hae h'.2 last (fun n => (b' n).1)
  have hT : ∀ n, (field full n).Tmax = 0 := fun n => by rw [(bf n).2.1, (b' n).2]
  have hL : ∀ n, ∃ d, (field full n).L = [(d, field last.toStates n)] := by
    intro n
    obtain ⟨b, hb, e2, -⟩ := lf n
    exact ⟨b.1, by rw [one_sample (bf n).1.inv (hT n) hb, ← e2]⟩
  refine ⟨⟨last.t, Dt, stateAt last, h'.1, full, cmd⟩, ?_, rfl, rfl, rfl, fun n => ⟨(bf n).1, hT n⟩, ?_, ?_⟩
  · simp only [Inputs.ofYaml, List.getLast?_append, List.getLast?_singleton, Option.some_or, List.dropLast_concat]
    simp only [bind, Except.bind, pure, Except.pure] at e' ⊢
    rw [e']
    simp only [ef]
  · obtain ⟨d, hd⟩ := hL .x
    exact congrArg List.length hd
  · have hi : ∀ n, ∃ d, (field full n).index ((0 : Nat) : Int) = .ok (d, field last.toStates n) := by
      intro n
      obtain ⟨d, hd⟩ := hL n
      exact ⟨d, by simp [History.index, hd, getUB]⟩
    obtain ⟨_, a1⟩ := hi .x
    obtain ⟨_, a2⟩ := hi .y
    obtain ⟨_, a3⟩ := hi .z
    obtain ⟨_, a4⟩ := hi .u
    obtain ⟨_, a5⟩ := hi .v
    obtain ⟨_, a6⟩ := hi .w
    obtain ⟨_, a7⟩ := hi .p
    obtain ⟨_, a8⟩ := hi .q
    obtain ⟨_, a9⟩ := hi .r
    obtain ⟨_, a10⟩ := hi .qr
    obtain ⟨_, a11⟩ := hi .qi
    obtain ⟨_, a12⟩ := hi .qj
    obtain ⟨_, a13⟩ := hi .qk
    simp only [field] at a1 a2 a3 a4 a5 a6 a7 a8 a9 a10 a11 a12 a13
    simp only [States.getStateType, a1, a2, a3, a4, a5, a6, a7, a8, a9, a10, a11, a12, a13, bind, Except.bind, pure, Except.pure, stateAt]

theorem stages_D {S : Setup K Γ E} {cmd : Commands K} {f F : List K → K → List K} {Good D : List K → Prop}
    (hM : Memoryless S cmd f F Good D) (x : List K) (hx : Good x) (t dt : K) : ∀ (rows : List (K × List K)) (ks : List (List K)),
    (∀ k ∈ ks, D k) → ∀ k ∈ RK.rkStages f x t dt rows ks, D k
  | [], ks, h => h
  | (c, a) :: rest, ks, h => by
    refine stages_D hM x hx t dt rest _ fun k hk => ?_
    rcases List.mem_append.1 hk with h1 | h1
    · exact h k h1
    · rw [List.mem_singleton.1 h1]
      exact hM.deriv _ _ (hM.move dt x a ks hx h)

theorem good_run {S : Setup K Γ E} {cmd : Commands K} {f F : List K → K → List K} {Good D : List K → Prop}
    (hM : Memoryless S cmd f F Good D) (T : Tableau K) (x : List K) (hx : Good x) (t dt : K) : ∀ i, Good (RK.rkRun f F T x t dt i)
  | 0 => hx
  | i + 1 => (hM.force _ _ (hM.move dt _ _ _ (good_run hM T x hx t dt i)
      (stages_D hM _ (good_run hM T x hx t dt i) _ dt _ _ (by simp)))).2.2

theorem convert_ok (angles : K → K → K → K → Except Err (K × K × K)) (hang : ∀ a b c d, ∃ e, angles a b c d = .ok e)
    (r : Res K E) (hr : r.x.length = 13) :
    ∃ y, convertWithAngles angles r = .ok y ∧ y.1.t = r.t ∧ stateAt y.1 = r.x := by
  obtain ⟨t, x, e⟩ := r
  match x, hr with
  | [a, b, c, d, e', f, g, h, i, j, k, l, m], _ =>
    obtain ⟨w, hw⟩ := hang j k l m
    refine ⟨(⟨⟨a, b, c, d, e', f, g, h, i, j, k, l, m⟩, t, w.1, w.2.1, w.2.2⟩, e), ?_, rfl, rfl⟩
    simp only [convertWithAngles, convertWithoutAngles, getUB, List.getElem?_cons_zero, List.getElem?_cons_succ, bind, Except.bind, pure, Except.pure, hw]

theorem convert_all (angles : K → K → K → K → Except Err (K × K × K)) (hang : ∀ a b c d, ∃ e, angles a b c d = .ok e) :
    ∀ (l : List (Res K E)), (∀ r ∈ l, r.x.length = 13) →
      ∃ ys, l.mapM (convertWithAngles angles) = .ok ys ∧ ys.map (fun y => (y.1.t, stateAt y.1)) = l.map (fun r => (r.t, r.x))
  | [], _ => ⟨[], rfl, rfl⟩
  | r :: l, h => by
    obtain ⟨y, e1, e2, e3⟩ := convert_ok angles hang r (h r (by simp))
    obtain ⟨ys, e4, e5⟩ := convert_all angles hang l fun r hr => h r (by simp [hr])
    refine ⟨y :: ys, ?_, ?_⟩
    · simp only [List.mapM_cons, e1, e4, bind, Except.bind, pure, Except.pure]
    · simp only [List.map_cons, e2, e3, e5]

/-- A request, when no force model uses the past. -/
theorem one_request {S : Setup K Γ E} {cmd : Commands K} {f F out : List K → K → List K} {Good D : List K → Prop}
    (hM : Memoryless S cmd f F Good D) (hout : ∀ x t, Good x → S.normalize (F x t) = .ok (out x t) ∧ (out x t).length = 13)
    (hae : ∀ n a, S.ae n a a = true) (T : Tableau K) (hT : Forward T) (C : StepConf K) (hC : C.stepper = T.stepper) (hdt : 0 < C.dt)
    (hang : ∀ a b c d, ∃ e, C.angles a b c d = .ok e) (s : Sim K Γ) (hc : ∀ n, cmd n = none → s.commands n = none)
    (past : List (YamlState K)) (last : YamlState K) (hd : List.Pairwise (fun a b => a.t ≤ b.t) (past ++ [last]))
    (hs : Good (stateAt last)) (Dt : K) (hDt : 0 < Dt) (N : Nat) (hN : Dt ≤ N * C.dt) (hfirst : ∀ i : Nat, i < N → i * C.dt < Dt)
    (fuel : Nat) (hf : N ≤ fuel) :
    ∃ inp s' answer, Inputs.ofYaml S.ae { Dt := Dt, states := past ++ [last], commands := cmd } 0 = .ok inp ∧
      playOneStep S C fuel s inp = some (.ok (s', answer)) ∧ s'.commands = cmd ∧
      answer.map (fun y => (y.1.t, stateAt y.1)) = (List.range (N + 1)).map
        (fun i : Nat => (last.t + i * C.dt, out (RK.rkRun f F T (stateAt last) last.t C.dt i) (last.t + i * C.dt))) := by
  obtain ⟨inp, e1, e2, e3, e4, e5, e6, e7⟩ := ofYaml_ok S.ae hae Dt cmd past last hd
  have hemp : inp.fullHistory.x.L.isEmpty = false := by
    cases h : inp.fullHistory.x.L with
    | nil => rw [h] at e6; cases e6
    | cons a l => rfl
  set s1 : Sim K Γ := { s with hist := inp.fullHistory, state := stateAt last, commands := cmd } with hs1
  have hprep : prepare s inp = .ok s1 := by
    simp only [prepare, Sim.resetHistory, Sim.setBodyStates, hemp, e6, Nat.sub_self, e7, bind, Except.bind, pure, Except.pure,
      Sim.setCommandListener, e4]
    simp only [Bool.false_eq_true, if_false, hs1, Except.ok.injEq, Sim.mk.injEq, true_and, and_true]
    funext n
    cases h : cmd n with
    | some v => rfl
    | none => exact hc n h
  obtain ⟨s2, obs, q1, q2, q3, q4⟩ := rk_observations hM hae (simSystem S T.stepper) T hT (fun _ _ _ => rfl) (fun _ _ => rfl)
    (fun s t hs => by
      simp only [simSystem, forceAllStates, List.foldlM_cons, List.foldlM_nil, (hM.force _ t hs).1, bind, Except.bind, pure, Except.pure])
    (fun x t hx => (hM.force x t hx).2.2) s1 rfl hs (fun n => (e5 n).2) last.t (last.t + Dt) C.dt hdt (fun n => (e5 n).1) N
    (by linarith) (fun i hi => by have := hfirst i hi; linarith) fuel hf
  have hg : Good s2.state := by rw [q2]; exact good_run hM T _ hs _ _ N
  have hobs : ∃ o, s2.observe S (last.t + Dt) = .ok o := by
    obtain ⟨a, -, b⟩ := hM.force s2.state (last.t + Dt) hg
    obtain ⟨y, hy⟩ := hM.norm _ b
    exact ⟨_, by simp only [Sim.observe, outputStates, List.foldlM_cons, List.foldlM_nil, a, hy, bind, Except.bind, pure, Except.pure]; rfl⟩
  obtain ⟨o, ho⟩ := hobs
  have hx : ∀ (i : Nat) (hi : i < obs.length), obs[i].x = out (RK.rkRun f F T (stateAt last) last.t C.dt i) (last.t + i * C.dt) := by
    intro i hi
    have h1 := (q4 i hi).2
    rw [(hout _ _ (good_run hM T _ hs _ _ i)).1] at h1
    exact (Except.ok.inj h1).symm
  obtain ⟨ys, y1, y2⟩ := convert_all C.angles hang obs (fun r hr => by
    obtain ⟨i, hi, rfl⟩ := List.getElem_of_mem hr
    rw [hx i hi]
    exact (hout _ _ (good_run hM T _ hs _ _ i)).2)
  have hplay : playOneStep S C fuel s inp = some (.ok (s2, ys)) := by
    simp only [playOneStep, e3, if_neg (not_le.2 hDt), step, hprep, simulate, hC, e2, q1]
    simp only [bind, Option.bind, Except.bind, pure, Except.pure, ho, y1]
  refine ⟨inp, s2, ys, e1, hplay, ?_, ?_⟩
  · funext n
    rw [playOneStep_commands S C fuel s s2 inp ys hplay n, e4]
    cases h : cmd n with
    | some v => rfl
    | none => exact hc n h
  · rw [y2]
    refine List.ext_getElem (by simp [q3]) fun i h1 h2 => ?_
    simp only [List.getElem_map, List.getElem_range]
    rw [(q4 i (by simpa using h1)).1, hx i (by simpa using h1)]

/-- **C185** A simulation made of several requests, whatever their durations and the part of the past that is sent with each of them, when no
force model uses the past: every request is answered, and the answers are the states that the method of the solver gives, started
again from the state that was sent at the end of the previous answer (that is with its quaternion normalised, and its blocked states
replaced). -/
theorem chained_requests {S : Setup K Γ E} {cmd : Commands K} {f F out : List K → K → List K} {Good D : List K → Prop}
    (hM : Memoryless S cmd f F Good D)
    (hout : ∀ x t, Good x → S.normalize (F x t) = .ok (out x t) ∧ (out x t).length = 13 ∧ Good (out x t))
    (hae : ∀ n a, S.ae n a a = true) (T : Tableau K) (hT : Forward T) (C : StepConf K) (hC : C.stepper = T.stepper) (hdt : 0 < C.dt)
    (hang : ∀ a b c d, ∃ e, C.angles a b c d = .ok e) (fuel : Nat) (requests : List (Nat × K)) (steps : List Nat)
    (hsteps : List.Forall₂ (fun (r : Nat × K) (N : Nat) => 0 < r.2 ∧ r.2 ≤ N * C.dt ∧ (∀ i : Nat, i < N → i * C.dt < r.2) ∧ N ≤ fuel) requests steps) :
    ∀ (s : Sim K Γ) (past : List (YamlState K)) (last : YamlState K), (∀ n, cmd n = none → s.commands n = none) →
      List.Pairwise (fun a b => a.t ≤ b.t) (past ++ [last]) → Good (stateAt last) →
      ∃ answers, chain S C 0 fuel cmd s (past ++ [last]) requests = some (.ok answers) ∧
        answers.map (List.map (fun y => (y.1.t, stateAt y.1))) = pieces f F out T C.dt (stateAt last) last.t steps := by
  induction hsteps with
  | nil => intro s past last _ _ _; exact ⟨[], rfl, rfl⟩
  | @cons r N requests steps h1 _ ih =>
    intro s past last hc hd hs
    obtain ⟨hDt, hN, hfirst, hf⟩ := h1
    obtain ⟨forget, Dt⟩ := r
    have hdrop : (past ++ [last]).drop (min forget ((past ++ [last]).length - 1)) = past.drop (min forget past.length) ++ [last] := by
      rw [List.length_append, List.length_singleton, Nat.add_sub_cancel, List.drop_append_of_le_length (by omega)]
    obtain ⟨inp, s', answer, e1, e2, e3, e4⟩ := one_request hM (fun x t hx => ⟨(hout x t hx).1, (hout x t hx).2.1⟩) hae T hT C hC hdt hang s hc
      (past.drop (min forget past.length)) last
      (hd.sublist (List.Sublist.append (List.drop_sublist _ _) (List.Sublist.refl _))) hs Dt hDt N hN hfirst fuel hf
    have hN1 : 1 ≤ N := by
      rcases Nat.eq_zero_or_pos N with h | h
      · subst h; simp at hN; exact absurd hN (not_le.2 hDt)
      · exact h
    set R := (answer.drop 1).map Prod.fst with hR
    have hRmap : R.map (fun y => (y.t, stateAt y)) = ((List.range (N + 1)).map
        (fun i : Nat => (last.t + i * C.dt, out (RK.rkRun f F T (stateAt last) last.t C.dt i) (last.t + i * C.dt)))).drop 1 := by
      rw [← e4, ← List.map_drop, hR, List.map_map]
      rfl
    have hRlen : R.length = N := by
      have := congrArg List.length hRmap
      simpa using this
    have hRi : ∀ (i : Nat) (hi : i < R.length), (R[i].t, stateAt R[i]) = (last.t + ((i + 1 : Nat) : K) * C.dt,
        out (RK.rkRun f F T (stateAt last) last.t C.dt (i + 1)) (last.t + ((i + 1 : Nat) : K) * C.dt)) := by
      intro i hi
      have h2 : (R.map (fun y => (y.t, stateAt y)))[i]? = some (R[i].t, stateAt R[i]) := by
        rw [List.getElem?_map, List.getElem?_eq_getElem hi]; rfl
      rw [hRmap, List.getElem?_drop, List.getElem?_map, List.getElem?_range (by omega), Nat.add_comm 1 i] at h2
      exact (Option.some.inj h2).symm
    obtain ⟨init, z, hz⟩ : ∃ init z, R = init ++ [z] := by
      refine ⟨R.dropLast, R.getLast (by rintro h; rw [h] at hRlen; simp at hRlen; omega), (List.dropLast_append_getLast _).symm⟩
    have hzv : (z.t, stateAt z) = (last.t + (N : K) * C.dt,
        out (RK.rkRun f F T (stateAt last) last.t C.dt N) (last.t + (N : K) * C.dt)) := by
      have hl : init.length + 1 = N := by rw [← hRlen, hz]; simp
      have h3 := hRi init.length (by omega)
      have h4 : R[init.length]'(by omega) = z := by simp [hz]
      rw [h4, hl] at h3
      exact h3
    have hz1 : z.t = last.t + (N : K) * C.dt := (Prod.mk.inj hzv).1
    have hz2 : stateAt z = out (RK.rkRun f F T (stateAt last) last.t C.dt N) (last.t + (N : K) * C.dt) := (Prod.mk.inj hzv).2
    have hdates : List.Pairwise (fun a b => a.t ≤ b.t) ((past ++ [last] ++ init) ++ [z]) := by
      rw [List.append_assoc, ← hz, List.pairwise_append]
      have hRt : ∀ (i : Nat) (hi : i < R.length), R[i].t = last.t + ((i + 1 : Nat) : K) * C.dt := fun i hi => (Prod.mk.inj (hRi i hi)).1
      refine ⟨hd, ?_, ?_⟩
      · rw [List.pairwise_iff_getElem]
        intro i j hi hj hij
        rw [hRt i hi, hRt j hj]
        have : ((i + 1 : Nat) : K) ≤ ((j + 1 : Nat) : K) := by exact_mod_cast (by omega)
        nlinarith
      · intro a ha b hb
        obtain ⟨i, hi, rfl⟩ := List.getElem_of_mem hb
        rw [hRt i hi]
        have h5 : a.t ≤ last.t := by
          rw [List.pairwise_append] at hd
          rcases List.mem_append.1 ha with h | h
          · exact hd.2.2 a h last (by simp)
          · rw [List.mem_singleton.1 h]
        have : (0 : K) ≤ ((i + 1 : Nat) : K) * C.dt := by positivity
        linarith
    obtain ⟨answers, q1, q2⟩ := ih s' (past ++ [last] ++ init) z (fun n hn => by rw [e3]; exact hn) hdates
      (by rw [hz2]; exact (hout _ _ (good_run hM T _ hs _ _ N)).2.2)
    refine ⟨answer :: answers, ?_, ?_⟩
    · rw [List.append_assoc, ← hz] at q1
      simp only [chain, hdrop, e1, e2, ← hR, q1]
    · rw [List.map_cons, e4, q2, pieces, hz1, hz2]

theorem rkRun_add (f G : List K → K → List K) (T : Tableau K) (x : List K) (t dt : K) (m : Nat) :
    ∀ i, RK.rkRun f G T x t dt (m + i) = RK.rkRun f G T (RK.rkRun f G T x t dt m) (t + m * dt) dt i
  | 0 => rfl
  | i + 1 => by
    have e : t + ((m + i : Nat) : K) * dt = t + m * dt + i * dt := by push_cast; ring
    rw [← Nat.add_assoc, RK.rkRun, rkRun_add f G T x t dt m i, e, RK.rkRun]

theorem pieces_cuts (f : List K → K → List K) (T : Tableau K) (dt : K) : ∀ (steps : List Nat) (x : List K) (t : K) (n : Nat), steps.sum ≤ n →
    pieces f (fun x _ => x) (fun x _ => x) T dt x t steps =
      cuts ((List.range (n + 1)).map (fun i : Nat => (t + i * dt, RK.rkRun f (fun x _ => x) T x t dt i))) steps
  | [], _, _, _, _ => rfl
  | N :: steps, x, t, n, h => by
    rw [List.sum_cons] at h
    rw [pieces, cuts, pieces_cuts f T dt steps _ _ (n - N) (by omega)]
    congr 1
    · rw [← List.map_take, List.take_range, min_eq_left (by omega)]
    · congr 1
      refine List.ext_getElem (by simp; omega) fun i h1 h2 => ?_
      simp only [List.getElem_map, List.getElem_range, List.getElem_drop, rkRun_add]
      congr 1
      push_cast
      ring

/-- **C185** If the normalisation and the blocked states do not change the states along the simulation (for instance because the body does
not turn), then cutting a simulation into requests changes nothing: the answers are the observations of one simulation with `xdyn` (or with
the solver of the server), cut into pieces. -/
theorem cut_simulation {S : Setup K Γ E} {cmd : Commands K} {f : List K → K → List K} {Good D : List K → Prop}
    (hM : Memoryless S cmd f (fun x _ => x) Good D) (hn : ∀ x, Good x → S.normalize x = .ok x ∧ x.length = 13)
    (hae : ∀ n a, S.ae n a a = true) (T : Tableau K) (hT : Forward T) (C : StepConf K) (hC : C.stepper = T.stepper) (hdt : 0 < C.dt)
    (hang : ∀ a b c d, ∃ e, C.angles a b c d = .ok e) (fuel : Nat) (requests : List (Nat × K)) (steps : List Nat)
    (hsteps : List.Forall₂ (fun (r : Nat × K) (N : Nat) => 0 < r.2 ∧ r.2 ≤ N * C.dt ∧ (∀ i : Nat, i < N → i * C.dt < r.2) ∧ N ≤ fuel)
      requests steps)
    (s : Sim K Γ) (past : List (YamlState K)) (last : YamlState K) (hc : ∀ n, cmd n = none → s.commands n = none)
    (hd : List.Pairwise (fun a b => a.t ≤ b.t) (past ++ [last])) (hg : Good (stateAt last))
    (sys : System K (Sim K Γ) (Res K E)) (hsys : sys = simSystem S T.stepper ∨ sys = sscSystem S T.stepper)
    (s0 : Sim K Γ) (hs0 : s0.state = stateAt last) (hc0 : s0.commands = cmd) (h0 : ∀ n, (field s0.hist n).Tmax = 0)
    (hh : NotAfter S.ae s0.hist last.t) (tend : K) (hN : tend ≤ last.t + (steps.sum : Nat) * C.dt)
    (hfirst : ∀ i : Nat, i < steps.sum → last.t + i * C.dt < tend) (fuel0 : Nat) (hf : steps.sum ≤ fuel0) :
    ∃ answers s' obs, chain S C 0 fuel cmd s (past ++ [last]) requests = some (.ok answers) ∧
      quicksolve sys fuel0 s0 last.t tend C.dt = some (.ok (s', obs)) ∧
      answers.map (List.map (fun y => (y.1.t, stateAt y.1))) = cuts (obs.map (fun o => (o.t, o.x))) steps := by
  obtain ⟨answers, e1, e2⟩ := chained_requests hM (out := fun x _ => x) (fun x t hx => ⟨(hn x hx).1, (hn x hx).2, hx⟩) hae T hT C hC hdt hang
    fuel requests steps hsteps s past last hc hd hg
  obtain ⟨s', obs, q1, -, q3, q4⟩ : ∃ s' obs, quicksolve sys fuel0 s0 last.t tend C.dt = some (.ok (s', obs)) ∧
      s'.state = RK.rkRun f (fun x _ => x) T s0.state last.t C.dt steps.sum ∧ obs.length = steps.sum + 1 ∧
      ∀ (i : Nat) (hi : i < obs.length), obs[i].t = last.t + i * C.dt ∧
        S.normalize (RK.rkRun f (fun x _ => x) T s0.state last.t C.dt i) = .ok obs[i].x := by
    rcases hsys with rfl | rfl
    · exact simulation_is_runge_kutta hM hae T hT s0 hc0 (hs0 ▸ hg) h0 last.t tend C.dt hdt hh _ hN hfirst fuel0 hf
    · exact executable_is_runge_kutta hM hae T hT s0 hc0 (hs0 ▸ hg) h0 last.t tend C.dt hdt hh _ hN hfirst fuel0 hf
  refine ⟨answers, s', obs, e1, q1, ?_⟩
  rw [e2, pieces_cuts f T C.dt steps _ _ steps.sum le_rfl]
  congr 1
  refine List.ext_getElem (by simp [q3]) fun i h1 h2 => ?_
  have hi : i < obs.length := by simpa using h2
  obtain ⟨a, b⟩ := q4 i hi
  rw [hs0, (hn _ (good_run hM T _ hg _ _ i)).1] at b
  simp only [List.getElem_map, List.getElem_range, a, Except.ok.inj b]

end

/-! ### Bodies that do not turn -/

/-- **C185** A body whose forces and controllers do not make it turn (see C182): the answers to the requests are the observations of a single
simulation. -/
theorem translation_cut {e : Multi.Entry ℝ} {l : List Push} {cs : List Control} {cmd : Commands ℝ} {M : Mat6 ℝ}
    {a : Vec3 ℝ → Vec3 ℝ → Vec3 ℝ} {q : Quat ℝ} (he : Translating e l cs cmd M a q) (hq : Unit4 q)
    (ae : Nat → ℝ → ℝ → Bool) (hae : ∀ n a, ae n a a = true) (ae1 : ℝ → Bool)
    (T : Tableau ℝ) (hT : Forward T) (C : StepConf ℝ) (hC : C.stepper = T.stepper) (hdt : 0 < C.dt)
    (hang : ∀ a b c d, ∃ e, C.angles a b c d = .ok e) (fuel : Nat) (requests : List (Nat × ℝ)) (steps : List Nat)
    (hsteps : List.Forall₂ (fun (r : Nat × ℝ) (N : Nat) => 0 < r.2 ∧ r.2 ≤ N * C.dt ∧ (∀ i : Nat, i < N → i * C.dt < r.2) ∧ N ≤ fuel)
      requests steps)
    (s : Sim ℝ (Vec3 ℝ × Vec3 ℝ)) (past : List (YamlState ℝ)) (last : YamlState ℝ) (hc : ∀ n, cmd n = none → s.commands n = none)
    (hd : List.Pairwise (fun a b => a.t ≤ b.t) (past ++ [last])) (P v : Vec3 ℝ) (hlast : stateAt last = vec13 P v 0 q)
    (sys : System ℝ (Sim ℝ (Vec3 ℝ × Vec3 ℝ)) (Res ℝ Unit))
    (hsys : sys = simSystem (oneBody e ae ae1) T.stepper ∨ sys = sscSystem (oneBody e ae ae1) T.stepper)
    (s0 : Sim ℝ (Vec3 ℝ × Vec3 ℝ)) (hs0 : s0.state = vec13 P v 0 q) (hc0 : s0.commands = cmd) (h0 : ∀ n, (field s0.hist n).Tmax = 0)
    (hh : NotAfter ae s0.hist last.t) (tend : ℝ) (hN : tend ≤ last.t + (steps.sum : Nat) * C.dt)
    (hfirst : ∀ i : Nat, i < steps.sum → last.t + i * C.dt < tend) (fuel0 : Nat) (hf : steps.sum ≤ fuel0) :
    ∃ answers s' obs, chain (oneBody e ae ae1) C 0 fuel cmd s (past ++ [last]) requests = some (.ok answers) ∧
      quicksolve sys fuel0 s0 last.t tend C.dt = some (.ok (s', obs)) ∧
      answers.map (List.map (fun y => (y.1.t, stateAt y.1))) = cuts (obs.map (fun o => (o.t, o.x))) steps :=
  cut_simulation (translating_memoryless hq he ae ae1)
    (by rintro x ⟨P, v, rfl⟩; exact ⟨normalize_unit ae1 P v 0 q hq, rfl⟩) hae T hT C hC hdt hang fuel requests steps hsteps s past last hc hd
    ⟨P, v, hlast⟩ sys hsys s0 (hs0.trans hlast.symm) hc0 h0 hh tend hN hfirst fuel0 hf

/-! ### Bodies that turn -/

theorem normalize_unitQuaternion (ae1 : ℝ → Bool) (x : List ℝ) (hx : x.length = 13) :
    normalizeQuaternions ae1 1 x = .ok (unitQuaternion ae1 x) ∧ (unitQuaternion ae1 x).length = 13 := by
  match x, hx with
  | [a, b, c, d, e, f, g, h, i, j, k, l, m], _ =>
    have hqo : quatOf [a, b, c, d, e, f, g, h, i, j, k, l, m] 0 = .ok ⟨j, k, l, m⟩ := rfl
    simp only [normalizeQuaternions, show List.range 1 = [0] from rfl, List.foldlM_cons, List.foldlM_nil, normalizeOne, hqo,
      bind, Except.bind, pure, Except.pure, hypot4, unitQuaternion]
    by_cases hn : ae1 (Real.sqrt (j ^ 2 + k ^ 2 + l ^ 2 + m ^ 2)) = true
    · simp [hn]
    · simp [hn, setUB, QRIDX, QIIDX, QJIDX, QKIDX, nbOfStatesPerBody]

/-- **C185** One body with the usual force models and controllers (see C179 and C182), whatever its motion: the answers to the requests are the
states that the method gives for the equations of motion, started again at each request from the state sent at the end of the
previous answer, that is with a quaternion whose norm is 1. -/
theorem body_requests (e : Multi.Entry ℝ) (he : Alone e) (l : List Push) (hl : e.forces = l.map (Push.model e.body)) (hb : ∀ f ∈ l, ¬ f.InBody)
    (cs : List Control) (hcs : e.controlled = cs.map (Control.model e.body)) (cmd : Commands ℝ) (ho : ∀ c ∈ cs, c.Commanded cmd)
    (ae : Nat → ℝ → ℝ → Bool) (hae : ∀ n a, ae n a a = true) (ae1 : ℝ → Bool)
    (T : Tableau ℝ) (hT : Forward T) (C : StepConf ℝ) (hC : C.stepper = T.stepper) (hdt : 0 < C.dt)
    (hang : ∀ a b c d, ∃ e, C.angles a b c d = .ok e) (fuel : Nat) (requests : List (Nat × ℝ)) (steps : List Nat)
    (hsteps : List.Forall₂ (fun (r : Nat × ℝ) (N : Nat) => 0 < r.2 ∧ r.2 ≤ N * C.dt ∧ (∀ i : Nat, i < N → i * C.dt < r.2) ∧ N ≤ fuel)
      requests steps)
    (s : Sim ℝ (Vec3 ℝ × Vec3 ℝ)) (past : List (YamlState ℝ)) (last : YamlState ℝ) (hc : ∀ n, cmd n = none → s.commands n = none)
    (hd : List.Pairwise (fun a b => a.t ≤ b.t) (past ++ [last])) :
    ∃ answers, chain (oneBody e ae ae1) C 0 fuel cmd s (past ++ [last]) requests = some (.ok answers) ∧
      answers.map (List.map (fun y => (y.1.t, stateAt y.1))) =
        pieces (newton e.body.Minv (total e.body l cs)) (fun x _ => x) (fun x _ => unitQuaternion ae1 x) T C.dt (stateAt last) last.t steps :=
  chained_requests (controlled_memoryless e he ae ae1 l hl hb cs hcs cmd ho) (out := fun x _ => unitQuaternion ae1 x)
    (fun x t hx => ⟨(normalize_unitQuaternion ae1 x hx).1, (normalize_unitQuaternion ae1 x hx).2, (normalize_unitQuaternion ae1 x hx).2⟩)
    hae T hT C hC hdt hang fuel requests steps hsteps s past last hc hd rfl

/-- A ball of 1 kg without any force. -/
noncomputable def top : Multi.MBody ℝ where
  name := "top"
  idx := 0
  blocked := ⟨fun _ => none, 0, fun _ => none, fun _ => none⟩
  G := 0
  Minv := 1
  coriolis := fun v w => (cross v w, 0)

noncomputable def freeTop : Multi.Entry ℝ := ⟨top, [], []⟩

/-- It moves ahead at 1 m/s and turns at 1.5 rad/s. -/
noncomputable def turning : YamlState ℝ :=
  { x := 0, y := 0, z := 0, u := 1, v := 0, w := 0, p := 0, q := 0, r := 3 / 2, qr := 1, qi := 0, qj := 0, qk := 0,
    t := 0, phi := 0, theta := 0, psi := 0 }

theorem top_newton (x y z u v w p q r qr qi qj qk t : ℝ) :
    newton freeTop.body.Minv (total freeTop.body [] []) [x, y, z, u, v, w, p, q, r, qr, qi, qj, qk] t =
      [(1 - 2 * (qj ^ 2 + qk ^ 2)) * u + 2 * (qi * qj - qr * qk) * v + 2 * (qi * qk + qr * qj) * w,
       2 * (qi * qj + qr * qk) * u + (1 - 2 * (qi ^ 2 + qk ^ 2)) * v + 2 * (qj * qk - qr * qi) * w,
       2 * (qi * qk - qr * qj) * u + 2 * (qj * qk + qr * qi) * v + (1 - 2 * (qi ^ 2 + qj ^ 2)) * w,
       v * r - w * q, w * p - u * r, u * q - v * p, 0, 0, 0,
       (-qi * p - qj * q - qk * r) / 2, (qr * p + qj * r - qk * q) / 2, (qr * q - qi * r + qk * p) / 2,
       (qr * r + qi * q - qj * p) / 2] := by
  simp only [newton, total, resultant, freeTop, top, List.map_nil, List.sum_nil, add_zero, Matrix.one_mulVec, cross]
  simp [Quat.matrix, Matrix.mulVec, dotProduct, Fin.sum_univ_succ]
  refine ⟨?_, ?_, ?_⟩ <;> ring

theorem unitQuaternion_head (ae1 : ℝ → Bool) (x : List ℝ) : (unitQuaternion ae1 x).headD 0 = x.headD 0 := by
  unfold unitQuaternion
  split
  · dsimp only; split <;> rfl
  · rfl

/-- **C185, what does not hold**: the same simulation made by one request or by two gives different states. In two steps of 1 s with `euler`,
the ball moves by 3.125 m along x with a single simulation (`xdyn`, or a single request), and by 2.72 m with two requests. -/
theorem cut_matters (ae1 : ℝ → Bool) (h1 : ae1 (5 / 4) = false) (C : StepConf ℝ) (hC : C.stepper = eulerMethod.stepper) (hdt : C.dt = 1)
    (hang : ∀ a b c d, ∃ e, C.angles a b c d = .ok e) (s : Sim ℝ (Vec3 ℝ × Vec3 ℝ)) (hc : ∀ n, s.commands n = none) :
    (∃ answers, chain (oneBody freeTop (fun _ a b => decide (a = b)) ae1) C 0 10 (fun _ => none) s [turning] [(0, 2)] = some (.ok answers) ∧
      answers.map (List.map (fun y => (y.1.t, y.1.x))) = [[(0, 0), (1, 1), (2, 25 / 8)]]) ∧
    ∃ answers, chain (oneBody freeTop (fun _ a b => decide (a = b)) ae1) C 0 10 (fun _ => none) s [turning] [(0, 1), (0, 1)] = some (.ok answers) ∧
      answers.map (List.map (fun y => (y.1.t, y.1.x))) = [[(0, 0), (1, 1)], [(1, 1), (2, 68 / 25)]] := by
  have hsq : Real.sqrt (25 / 16) = 5 / 4 := by
    rw [show (25 / 16 : ℝ) = (5 / 4) ^ 2 by norm_num, Real.sqrt_sq (by norm_num)]
  have key := fun requests steps h => body_requests freeTop ⟨rfl, show "top" ≠ "NED" by decide, fun _ => rfl⟩ [] rfl (by simp) [] rfl (fun _ => none)
    (by simp) (fun _ a b => decide (a = b)) (by simp) ae1 eulerMethod euler_forward C hC (by rw [hdt]; norm_num) hang 10
    requests steps h s [] turning (fun n _ => hc n) (by simp)
  have hx : ∀ (a : List (List (YamlState ℝ × Unit))) (b : List (List (ℝ × List ℝ))),
      a.map (List.map (fun y => (y.1.t, stateAt y.1))) = b →
      a.map (List.map (fun y => (y.1.t, y.1.x))) = b.map (List.map (fun p => (p.1, p.2.headD 0))) := by
    rintro a _ rfl
    rw [List.map_map]
    refine List.map_congr_left fun y _ => ?_
    rw [Function.comp, List.map_map]
    rfl
  have hall : ∀ i : Nat, i < 1 → (i : ℝ) * C.dt < 1 := by
    intro i hi
    rw [hdt]
    have : i = 0 := by omega
    subst this; norm_num
  have hall2 : ∀ i : Nat, i < 2 → (i : ℝ) * C.dt < 2 := by
    intro i hi
    rw [hdt]
    have : (i : ℝ) ≤ 1 := by exact_mod_cast (by omega : i ≤ 1)
    linarith
  constructor
  · obtain ⟨answers, e1, e2⟩ := key [(0, 2)] [2] (.cons ⟨by norm_num, by rw [hdt]; norm_num, hall2, by norm_num⟩ .nil)
    refine ⟨answers, e1, ?_⟩
    rw [hx _ _ e2]
    simp only [pieces, hdt, List.range_succ, List.range_zero, List.nil_append, List.cons_append, List.map_cons, List.map_nil, RK.rkRun, euler_textbook,
      unitQuaternion_head, stateAt, turning, top_newton, along, List.zipWith_cons_cons, List.zipWith_nil_left, List.headD_cons]
    norm_num
  · obtain ⟨answers, e1, e2⟩ := key [(0, 1), (0, 1)] [1, 1] (.cons ⟨by norm_num, by rw [hdt]; norm_num, hall, by norm_num⟩
      (.cons ⟨by norm_num, by rw [hdt]; norm_num, hall, by norm_num⟩ .nil))
    refine ⟨answers, e1, ?_⟩
    rw [hx _ _ e2]
    have hu : unitQuaternion ae1 [1, 0, 0, 1, -(3 / 2), 0, 0, 0, 3 / 2, 1, 0, 0, 3 / 4] =
        [1, 0, 0, 1, -(3 / 2), 0, 0, 0, 3 / 2, 4 / 5, 0, 0, 3 / 5] := by
      simp only [unitQuaternion]
      rw [show (1 : ℝ) ^ 2 + 0 ^ 2 + 0 ^ 2 + (3 / 4) ^ 2 = 25 / 16 by norm_num, hsq, h1]
      norm_num
    have hs1 : along (stateAt turning) 1 (newton freeTop.body.Minv (total freeTop.body [] []) (stateAt turning) (turning.t + ((0 : Nat) : ℝ) * 1)) =
        [1, 0, 0, 1, -(3 / 2), 0, 0, 0, 3 / 2, 1, 0, 0, 3 / 4] := by
      simp only [stateAt, turning, top_newton, along, List.zipWith_cons_cons, List.zipWith_nil_left]
      norm_num
    simp only [pieces, hdt, List.range_succ, List.range_zero, List.nil_append, List.cons_append, List.map_cons, List.map_nil, RK.rkRun, euler_textbook,
      unitQuaternion_head, hs1, hu]
    simp only [stateAt, turning, top_newton, along, List.zipWith_cons_cons, List.zipWith_nil_left, List.headD_cons]
    norm_num

/-! ### A concrete case of `translation_cut` -/

/-- A barge adrift at 1 m/s, kept by a dynamic positioning system. -/
noncomputable def adrift : YamlState ℝ :=
  { x := 12, y := 18, z := 0, u := 1, v := 0, w := 0, p := 0, q := 0, r := 0, qr := 4 / 5, qi := 0, qj := 0, qk := 3 / 5,
    t := 7, phi := 0, theta := 0, psi := 0 }

/-- Two requests of 0.25 s and 0.15 s with a time step of 0.1 s (so three steps, then two): the answers are the six
observations of one simulation. -/
example (psiOf : Mat3 ℝ → ℝ) (ae1 : ℝ → Bool) (s : Sim ℝ (Vec3 ℝ × Vec3 ℝ)) (hs : ∀ n, s.commands n = none) :
    let q : Quat ℝ := ⟨4 / 5, 0, 0, 3 / 5⟩
    let S := oneBody (bargeKept psiOf) (fun _ a b => decide (a = b)) ae1
    let C : StepConf ℝ := ⟨rk4Method.stepper, 0.1, fun _ _ _ _ => .ok (0, 0, 0)⟩
    ∃ answers s' obs, chain S C 0 10 (bargeCommands (psiOf q.matrix)) s [{ adrift with t := 6 }, adrift] [(0, 0.25), (3, 0.15)] =
        some (.ok answers) ∧
      quicksolve (sscSystem S rk4Method.stepper) 10 ⟨vec13 ![12, 18, 0] ![1, 0, 0] 0 q, noHistory, bargeCommands (psiOf q.matrix), [], 0⟩ 7 7.5 0.1 =
        some (.ok (s', obs)) ∧
      answers.map (List.map (fun y => (y.1.t, stateAt y.1))) = cuts (obs.map (fun o => (o.t, o.x))) [3, 2] := by
  intro q S C
  have hcast : ∀ (i n : Nat), i ≤ n → (i : ℝ) ≤ n := fun i n h => by exact_mod_cast h
  refine translation_cut (kept_translating (barge_kept psiOf q)) (by norm_num [Unit4, q]) _ (by simp) ae1 rk4Method rk4_forward C rfl
    (by norm_num [C]) (fun _ _ _ _ => ⟨_, rfl⟩) 10 [(0, 0.25), (3, 0.15)] [3, 2] ?_ s [{ adrift with t := 6 }] adrift (fun n _ => hs n)
    ?_ ![12, 18, 0] ![1, 0, 0] rfl _ (Or.inr rfl) _ rfl rfl (fun n => by cases n <;> rfl) (noHistory_notAfter _ _) 7.5 ?_ ?_ 10 (by norm_num)
  · refine .cons ⟨by norm_num, by norm_num [C], fun i hi => ?_, by norm_num⟩ (.cons ⟨by norm_num, by norm_num [C], fun i hi => ?_, by norm_num⟩ .nil)
    · have := hcast i 2 (by omega); push_cast at this; simp only [C]; linarith
    · have := hcast i 1 (by omega); push_cast at this; simp only [C]; linarith
  · simp [adrift]; norm_num
  · norm_num [C, adrift]
  · intro i hi
    have := hcast i 4 (by simp at hi; omega); push_cast at this; simp only [C, adrift]; linarith

end Xdyn.Server

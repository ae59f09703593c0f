import Verif.Lemmas.Dict
import Verif.Props.Observer

/-
Results of the co-simulation: C37.
-/

namespace Xdyn.Obs

variable {N G : Type}

/-- An observation of a co-simulation: date and values written by `Sim::output`. -/
abbrev Observation (N G : Type) := N × List (String × Val N G)

/-- Everything written for one observation. -/
def writes (o : Observation N G) : List (String × Val N G) := writesOf (Val.num o.1, o.2)

/-- The scalar observed under the name `v`, if any. -/
def scalar (o : Observation N G) (v : String) : Option N :=
  match latest (writes o) v with
  | some (.num x) => some x
  | _ => none

/-- Name of the `i`-th state of a body. -/
def stateName (body : String) (i : Nat) : String := (stateNames[i]?.getD "") ++ "(" ++ body ++ ")"

/-- What an entry of the results must be for an observation: the date, the thirteen states,
and all the other scalars. -/
structure Matches (body : String) (o : Observation N G) (r : Res N) : Prop where
  date : r.t = o.1
  states : (∀ i < 13, (scalar o (stateName body i)).isSome) → r.x.length = 13 ∧ ∀ i < 13, r.x[i]? = scalar o (stateName body i)
  others : ∀ v, v ≠ "t" → (∀ i < 13, v ≠ stateName body i) → r.extra.find v = scalar o v

theorem stateName_inj (body : String) {i j : Nat} (hi : i < 13) (hj : j < 13) (h : stateName body i = stateName body j) : i = j := by
  unfold stateName at h
  have h2 : stateNames[i]?.getD "" = stateNames[j]?.getD "" := by
    have := congrArg String.toList h
    simp only [String.toList_append, List.append_assoc, List.append_cancel_right_eq] at this
    exact String.toList_injective (by simpa using this)
  revert h2
  have : ∀ i < 13, ∀ j < 13, stateNames[i]?.getD "" = stateNames[j]?.getD "" → i = j := by decide
  exact this i hi j hj

theorem stateName_ne_t (body : String) (i : Nat) : stateName body i ≠ "t" := by
  intro h
  have := congrArg String.toList h
  unfold stateName at this
  simp only [String.toList_append] at this
  have h2 := congrArg (fun l => '(' ∈ l) this
  simp at h2

theorem findIdx_state (body v : String) :
    (∃ i < 13, v = stateName body i ∧ stateNames.findIdx? (fun s => v = s ++ "(" ++ body ++ ")") = some i) ∨
    ((∀ i < 13, v ≠ stateName body i) ∧ stateNames.findIdx? (fun s => v = s ++ "(" ++ body ++ ")") = none) := by
  cases h : stateNames.findIdx? (fun s => v = s ++ "(" ++ body ++ ")") with
  | some i =>
    left
    have h1 := List.findIdx?_eq_some_iff_getElem.mp h
    obtain ⟨hi, hp, _⟩ := h1
    refine ⟨i, hi, ?_, rfl⟩
    unfold stateName
    rw [List.getElem?_eq_getElem hi]
    simpa using hp
  | none =>
    right
    refine ⟨?_, rfl⟩
    intro i hi he
    have h1 := List.findIdx?_eq_none_iff.mp h
    have hi' : i < stateNames.length := hi
    have := h1 (stateNames[i]) (List.getElem_mem hi')
    simp only [decide_eq_false_iff_not] at this
    apply this
    rw [he]
    unfold stateName
    rw [List.getElem?_eq_getElem hi']
    rfl

theorem resize_length {α : Type} (l : List α) (n : Nat) (z : α) : (resize l n z).length = n := by
  unfold resize
  simp
  omega

theorem resize_getElem? {α : Type} (l : List α) {n : Nat} (z : α) (h : l.length = n) : resize l n z = l := by
  unfold resize
  simp [h, List.take_of_length_le]

/-- The inserters, case by case. -/
theorem inserter_t (zero : N) (body : String) (r : Res N) (x : N) : inserter zero body "t" r x = { r with t := x } := by
  simp [inserter]

theorem inserter_state (zero : N) (body : String) {i : Nat} (hi : i < 13) (r : Res N) (x : N) :
    inserter zero body (stateName body i) r x = { r with x := (resize r.x 13 zero).set i x } := by
  unfold inserter
  rw [if_neg (stateName_ne_t body i)]
  rcases findIdx_state body (stateName body i) with ⟨j, hj, he, hf⟩ | ⟨hno, _⟩
  · have := stateName_inj body hi hj he
    subst this
    rw [hf]
  · exact absurd rfl (hno i hi)

theorem inserter_other (zero : N) (body : String) {v : String} (ht : v ≠ "t") (hs : ∀ i < 13, v ≠ stateName body i) (r : Res N) (x : N) :
    inserter zero body v r x = { r with extra := r.extra.set v x } := by
  unfold inserter
  rw [if_neg ht]
  rcases findIdx_state body v with ⟨j, hj, he, hf⟩ | ⟨_, hf⟩
  · exact absurd he (hs j hj)
  · rw [hf]

/-- A result after the insertion of a list of (name, value). -/
def insertAll (zero : N) (body : String) (r : Res N) (kvs : List (String × N)) : Res N :=
  kvs.foldl (fun r kv => inserter zero body kv.1 r kv.2) r

theorem insertAll_spec (zero : N) (body : String) (r : Res N) (hr : r.extra.Sorted) (kvs : List (String × N)) (hk : (kvs.map Prod.fst).Nodup) :
    (insertAll zero body r kvs).extra.Sorted ∧
    ((insertAll zero body r kvs).t = ((kvs.find? (fun p => p.1 = "t")).map Prod.snd).getD r.t) ∧
    (r.x.length = 13 ∨ (∃ i < 13, stateName body i ∈ kvs.map Prod.fst) → (insertAll zero body r kvs).x.length = 13) ∧
    (∀ i < 13, ∀ x, (stateName body i, x) ∈ kvs → (insertAll zero body r kvs).x[i]? = some x) ∧
    (∀ i < 13, stateName body i ∉ kvs.map Prod.fst → r.x.length = 13 → (insertAll zero body r kvs).x[i]? = r.x[i]?) ∧
    (∀ v, v ≠ "t" → (∀ i < 13, v ≠ stateName body i) →
      (insertAll zero body r kvs).extra.find v = (((kvs.find? (fun p => p.1 = v)).map Prod.snd).or (r.extra.find v))) := by
  induction kvs generalizing r with
  | nil =>
    refine ⟨hr, rfl, ?_, ?_, ?_, ?_⟩
    · rintro (h | ⟨i, _, h⟩)
      · exact h
      · simp at h
    · intro i _ x h; simp at h
    · intro i _ _ _; rfl
    · intro v _ _; rfl
  | cons p kvs ih =>
    obtain ⟨k, x⟩ := p
    simp only [List.map_cons, List.nodup_cons] at hk
    obtain ⟨hk1, hk2⟩ := hk
    have hstep : insertAll zero body r ((k, x) :: kvs) = insertAll zero body (inserter zero body k r x) kvs := rfl
    rw [hstep]
    by_cases ht : k = "t"
    · subst ht
      rw [inserter_t]
      obtain ⟨a1, a2, a3, a4, a5, a6⟩ := ih { r with t := x } hr hk2
      have hnf : kvs.find? (fun p => p.1 = "t") = none := by
        rw [List.find?_eq_none]
        intro p hp
        simp only [decide_eq_true_eq]
        intro h
        exact hk1 (h ▸ List.mem_map_of_mem hp)
      refine ⟨a1, ?_, ?_, ?_, ?_, ?_⟩
      · rw [a2, hnf]; simp
      · rintro (h | ⟨i, hi, h⟩)
        · exact a3 (Or.inl h)
        · rcases List.mem_cons.mp h with h | h
          · exact absurd h (stateName_ne_t body i)
          · exact a3 (Or.inr ⟨i, hi, h⟩)
      · intro i hi y hy
        rcases List.mem_cons.mp hy with h | h
        · exact absurd (Prod.mk.inj h).1 (stateName_ne_t body i)
        · exact a4 i hi y h
      · intro i hi hn hl
        exact a5 i hi (fun h => hn (List.mem_cons_of_mem _ h)) hl
      · intro v hv hs
        rw [a6 v hv hs]
        simp [Ne.symm hv]
    · by_cases hstate : ∃ i < 13, k = stateName body i
      · obtain ⟨i, hi, rfl⟩ := hstate
        rw [inserter_state zero body hi]
        have hlen : ((resize r.x 13 zero).set i x).length = 13 := by simp [resize_length]
        obtain ⟨a1, a2, a3, a4, a5, a6⟩ := ih { r with x := (resize r.x 13 zero).set i x } hr hk2
        refine ⟨a1, ?_, ?_, ?_, ?_, ?_⟩
        · rw [a2]; simp [ht]
        · intro _; exact a3 (Or.inl hlen)
        · intro j hj y hy
          rcases List.mem_cons.mp hy with h | h
          · obtain ⟨h1, h2⟩ := Prod.mk.inj h
            have := stateName_inj body hj hi h1
            subst this; subst h2
            rw [a5 j hj hk1 hlen]
            rw [List.getElem?_set_self (by rw [resize_length]; exact hj)]
          · exact a4 j hj y h
        · intro j hj hn hl
          simp only [List.map_cons, List.mem_cons, not_or] at hn
          rw [a5 j hj hn.2 hlen]
          have hij : i ≠ j := fun h => hn.1 (h ▸ rfl)
          rw [List.getElem?_set_ne hij, resize_getElem? _ _ hl]
        · intro v hv hs
          rw [a6 v hv hs]
          have : stateName body i ≠ v := fun h => hs i hi h.symm
          simp [this]
      · have hs' : ∀ i < 13, k ≠ stateName body i := fun i hi h => hstate ⟨i, hi, h⟩
        rw [inserter_other zero body ht hs']
        obtain ⟨a1, a2, a3, a4, a5, a6⟩ := ih { r with extra := r.extra.set k x } (StdMap.sorted_set _ _ _ hr) hk2
        refine ⟨a1, ?_, ?_, ?_, ?_, ?_⟩
        · rw [a2]; simp [ht]
        · rintro (h | ⟨i, hi, h⟩)
          · exact a3 (Or.inl h)
          · rcases List.mem_cons.mp h with h | h
            · exact absurd h.symm (hs' i hi)
            · exact a3 (Or.inr ⟨i, hi, h⟩)
        · intro i hi y hy
          rcases List.mem_cons.mp hy with h | h
          · exact absurd (Prod.mk.inj h).1.symm (hs' i hi)
          · exact a4 i hi y h
        · intro i hi hn hl
          exact a5 i hi (fun h => hn (List.mem_cons_of_mem _ h)) hl
        · intro v hv hs
          rw [a6 v hv hs, StdMap.find_set _ _ _ _ hr]
          by_cases hvk : v = k
          · subst hvk
            have hnf : kvs.find? (fun p => p.1 = v) = none := by
              rw [List.find?_eq_none]
              intro p hp
              simp only [decide_eq_true_eq]
              intro h
              exact hk1 (h ▸ List.mem_map_of_mem hp)
            simp [hnf]
          · simp [hvk, Ne.symm hvk]

/-! ### `add` -/

theorem add_eq (zero : N) (ins : Res N → N → Res N) (res : List (Res N)) (values : List N) (h : res.length ≤ values.length) :
    add zero ins res values = List.zipWith ins (resize res values.length (Res.empty zero)) values := by
  unfold add
  dsimp only
  split
  · rw [List.drop_eq_nil_of_le (by rw [resize_length]), List.append_nil]
  · have hl : res.length = values.length := by omega
    rw [resize_getElem? _ _ hl, ← hl, List.drop_length, List.append_nil]

/-- Insertion of all the values of a map of vectors of the same size. -/
theorem foldl_add (zero : N) (body : String) (n : Nat) (m : List (String × List N)) (hm : ∀ p ∈ m, p.2.length = n) (hne : m ≠ [])
    (res : List (Res N)) (hres : res.length ≤ n) :
    (m.foldl (fun res kv => add zero (inserter zero body kv.1) res kv.2) res).length = n ∧
    ∀ i < n, (m.foldl (fun res kv => add zero (inserter zero body kv.1) res kv.2) res)[i]? =
      some (insertAll zero body ((res[i]?).getD (Res.empty zero)) (m.map (fun p => (p.1, (p.2[i]?).getD zero)))) := by
  induction m generalizing res with
  | nil => exact absurd rfl hne
  | cons p m ih =>
    have hp : p.2.length = n := hm p List.mem_cons_self
    have e : add zero (inserter zero body p.1) res p.2 =
        List.zipWith (inserter zero body p.1) (resize res n (Res.empty zero)) p.2 := by
      rw [add_eq _ _ _ _ (by omega), hp]
    have hlen : (add zero (inserter zero body p.1) res p.2).length = n := by
      rw [e]; simp [resize_length, hp]
    have hget : ∀ i < n, (add zero (inserter zero body p.1) res p.2)[i]? =
        some (inserter zero body p.1 ((res[i]?).getD (Res.empty zero)) ((p.2[i]?).getD zero)) := by
      intro i hi
      rw [e, List.getElem?_zipWith]
      have h1 : (resize res n (Res.empty zero))[i]? = some ((res[i]?).getD (Res.empty zero)) := by
        unfold resize
        rw [List.take_of_length_le hres]
        by_cases h : i < res.length
        · rw [List.getElem?_append_left h, List.getElem?_eq_getElem h]; rfl
        · rw [List.getElem?_append_right (by omega), List.getElem?_replicate, if_pos (by omega),
            List.getElem?_eq_none (by omega)]
          rfl
      have h2 : p.2[i]? = some ((p.2[i]?).getD zero) := by
        rw [List.getElem?_eq_getElem (by omega)]; rfl
      rw [h1, h2]
      rfl
    rw [List.foldl_cons]
    cases m with
    | nil =>
      refine ⟨hlen, fun i hi => ?_⟩
      rw [List.foldl_nil, hget i hi]
      rfl
    | cons q m =>
      obtain ⟨r1, r2⟩ := ih (fun p' hp' => hm p' (List.mem_cons_of_mem _ hp')) (by simp) _ (le_of_eq hlen)
      refine ⟨r1, fun i hi => ?_⟩
      rw [r2 i hi, hget i hi]
      rfl

/-! ### `MapObserver` -/

theorem find_ext_of_map {β γ : Type} (f : β → γ) (m : StdMap String β) (v : String) :
    ((m.map (fun p => (p.1, f p.2))).find? (fun p => p.1 = v)).map Prod.snd = (m.find v).map f := by
  induction m with
  | nil => rfl
  | cons p m ih =>
    obtain ⟨a, b⟩ := p
    rw [List.map_cons, List.find?_cons]
    unfold StdMap.find
    by_cases h : v = a
    · simp [h]
    · simp only [Ne.symm h, decide_false, h, if_false]
      exact ih

/-- Call of the functor of a variable that has a value. -/
def onVal {σ ν : Type} (f : ν → String → σ → σ) (x : Option ν) (v : String) (s : σ) : σ :=
  match x with
  | some x => f x v s
  | none => s

theorem onVal_some {σ ν : Type} (f : ν → String → σ → σ) (x : ν) (v : String) (s : σ) : onVal f (some x) v s = f x v s := rfl

/-- Effect of the loop on the serializers. -/
theorem ser_loop (src : String → Option (Val N G)) (vars : List String) (hn : vars.Nodup) (hv : ∀ v ∈ vars, (src v).isSome)
    (m : StdMap String (List N)) (hm : m.Sorted) :
    let m' := vars.foldl (fun m v => onVal (mapObs : Impl _ (Val N G)).serializer (src v) v m) m
    m'.Sorted ∧ ∀ v, m'.find v = match (if v ∈ vars then src v else none) with
      | some (.num x) => some (((m.find v).getD []) ++ [x])
      | _ => m.find v := by
  induction vars generalizing m with
  | nil => exact ⟨hm, fun v => rfl⟩
  | cons w vars ih =>
    simp only [List.nodup_cons] at hn
    obtain ⟨x, hx⟩ := Option.isSome_iff_exists.mp (hv w List.mem_cons_self)
    have key := ih hn.2 (fun v h => hv v (List.mem_cons_of_mem _ h))
    cases x with
    | grid g =>
      obtain ⟨k1, k2⟩ := key m hm
      simp only [List.foldl_cons, hx, onVal_some]
      refine ⟨k1, fun v => ?_⟩
      rw [show (mapObs : Impl _ (Val N G)).serializer (.grid g) w m = m from rfl, k2 v]
      by_cases hvw : v = w
      · subst hvw; simp [hn.1, hx]
      · simp [hvw]
    | num x =>
      obtain ⟨k1, k2⟩ := key (pushBack m w x) (StdMap.sorted_set _ _ _ hm)
      simp only [List.foldl_cons, hx, onVal_some]
      refine ⟨k1, fun v => ?_⟩
      rw [show (mapObs : Impl _ (Val N G)).serializer (.num x) w m = pushBack m w x from rfl, k2 v]
      have hpush : (pushBack m w x).find v = if v = w then some (((m.find w).getD []) ++ [x]) else m.find v :=
        StdMap.find_set _ _ _ _ hm
      by_cases hvw : v = w
      · subst hvw; simp [hn.1, hx, hpush]
      · simp [hvw, hpush]

/-- Effect of the loop on the initializers (on an empty map of values). -/
theorem init_loop (src : String → Option (Val N G)) (vars : List String) (hv : ∀ v ∈ vars, (src v).isSome)
    (m : StdMap String (List N)) (hm : m.Sorted) (hm0 : ∀ v, m.find v = none ∨ m.find v = some []) :
    let m' := vars.foldl (fun m v => onVal (mapObs : Impl _ (Val N G)).initializer (src v) v m) m
    m'.Sorted ∧ (∀ v, m'.find v = none ∨ m'.find v = some []) ∧
      (∀ v, (m'.find v).isSome → (m.find v).isSome ∨ ∃ x, src v = some (.num x)) := by
  induction vars generalizing m with
  | nil => exact ⟨hm, hm0, fun v h => Or.inl h⟩
  | cons w vars ih =>
    obtain ⟨x, hx⟩ := Option.isSome_iff_exists.mp (hv w List.mem_cons_self)
    have key := ih (fun v h => hv v (List.mem_cons_of_mem _ h))
    cases x with
    | grid g =>
      simp only [List.foldl_cons, hx, onVal_some]
      exact key m hm hm0
    | num x =>
      simp only [List.foldl_cons, hx, onVal_some]
      have hf : ∀ v, (m.set w []).find v = if v = w then some [] else m.find v := fun v => StdMap.find_set _ _ _ _ hm
      obtain ⟨k1, k2, k3⟩ := key (m.set w []) (StdMap.sorted_set _ _ _ hm) (by
        intro v
        rw [hf]
        by_cases h : v = w
        · simp [h]
        · simpa [h] using hm0 v)
      refine ⟨k1, k2, fun v h => ?_⟩
      rcases k3 v h with h' | h'
      · rw [hf] at h'
        by_cases hvw : v = w
        · subst hvw; exact Or.inr ⟨x, hx⟩
        · rw [if_neg hvw] at h'; exact Or.inl h'
      · exact Or.inr h'

theorem perform_line {σ ν : Type} (past : List (String × ν)) (vars : List String) (hv : ∀ v ∈ vars, (latest past v).isSome)
    (f : ν → String → σ → σ) (s : σ) :
    ∃ as, lineOf past vars f (fun x => x) = some as ∧
      perform as s = vars.foldl (fun s v => onVal f (latest past v) v s) s := by
  have h : vars.mapM (fun v => (latest past v).map (fun x => f x v)) =
      some (vars.map (fun v => fun s => onVal f (latest past v) v s)) := by
    refine mapM_some _ _ _ fun v hvm => ?_
    obtain ⟨x, hx⟩ := Option.isSome_iff_exists.mp (hv v hvm)
    simp [hx, onVal]
  refine ⟨_, by rw [lineOf, h]; rfl, ?_⟩
  rw [perform_intersperse_id, perform_map]

/-- `observe_everything` of a `MapObserver`. -/
theorem observeEverything_eq {o : Observer (StdMap String (List N)) (Val N G)} {past : List (String × Val N G)} (h : Inv o past)
    (ob : Observation N G) :
    ∃ o', o.observeEverything mapObs (.num ob.1) ob.2 = .ok o' ∧ Inv o' (past ++ writes ob) ∧ o'.initialized = true ∧
      o'.sub = (o'.inits.keys).foldl (fun m v => onVal (mapObs : Impl _ (Val N G)).serializer (latest (past ++ writes ob) v) v m)
        (if o.initialized then o.sub else (o'.inits.keys).foldl (fun m v => onVal (mapObs : Impl _ (Val N G)).initializer (latest (past ++ writes ob) v) v m) o.sub) := by
  have hw := inv_writes h (writes ob)
  obtain ⟨e1, e2, e3⟩ := foldl_write_fields o (writes ob)
  have hkeys : ∀ v ∈ ((writes ob).foldl Observer.write o).inits.keys, (latest (past ++ writes ob) v).isSome := by
    intro v hv
    rw [← hw.f2, StdMap.find_isSome]
    exact hv
  have hunf : o.observeEverything mapObs (.num ob.1) ob.2 =
      (do
        let o' ← ((writes ob).foldl Observer.write o).initializeSerialization mapObs ((writes ob).foldl Observer.write o).inits.keys
        o'.serializeVariables mapObs ((writes ob).foldl Observer.write o).inits.keys) := rfl
  generalize hO : (writes ob).foldl Observer.write o = O at hw e1 e2 e3 hkeys hunf
  rw [hunf]
  unfold Observer.initializeSerialization
  cases hi : o.initialized with
  | true =>
    obtain ⟨as, ha, hp⟩ := perform_line (past ++ writes ob) O.inits.keys hkeys (mapObs : Impl _ (Val N G)).serializer o.sub
    refine ⟨{ O with initialized := true, sub := perform as o.sub }, ?_, ⟨hw.s1, hw.s2, hw.f1, hw.f2⟩, rfl, ?_⟩
    · rw [e3, hi]
      simp only [Bool.not_true, Bool.false_eq_true, if_false, bind, Except.bind, pure, Except.pure]
      unfold Observer.serializeVariables
      simp only [bind, Except.bind, pure, Except.pure]
      rw [show (mapObs : Impl (StdMap String (List N)) (Val N G)).flushValueDuringWrite = fun x => x from rfl,
        loopVars_inv hw.f1, ha, e1]
      rfl
    · simp only [if_true]
      exact hp
  | false =>
    obtain ⟨ts, hti, hpi⟩ := perform_line (past ++ writes ob) O.inits.keys hkeys (mapObs : Impl _ (Val N G)).initializer o.sub
    obtain ⟨as, ha, hp⟩ := perform_line (past ++ writes ob) O.inits.keys hkeys (mapObs : Impl _ (Val N G)).serializer (perform ts o.sub)
    refine ⟨{ O with initialized := true, sub := perform as (perform ts o.sub) }, ?_, ⟨hw.s1, hw.s2, hw.f1, hw.f2⟩, rfl, ?_⟩
    · rw [e3, hi]
      simp only [Bool.not_false, if_true, bind, Except.bind, pure, Except.pure]
      rw [show (mapObs : Impl (StdMap String (List N)) (Val N G)).flushValueDuringInitialization = fun x => x from rfl,
        loopVars_inv hw.f2, hti]
      simp only
      unfold Observer.serializeVariables
      simp only [bind, Except.bind, pure, Except.pure]
      rw [show (mapObs : Impl (StdMap String (List N)) (Val N G)).flushValueDuringWrite = fun x => x from rfl,
        loopVars_inv hw.f1, ha, e1]
      rfl
    · simp only [Bool.false_eq_true, if_false]
      rw [← hpi]
      exact hp

/-- The same scalars are observed at all dates. -/
def SameVariables (obs : List (Observation N G)) : Prop :=
  ∀ o ∈ obs, ∀ o' ∈ obs, ∀ v, (scalar o v).isSome → (scalar o' v).isSome

theorem scalar_iff {o : Observation N G} {v : String} {x : N} : scalar o v = some x ↔ latest (writes o) v = some (.num x) := by
  unfold scalar
  split
  · rename_i y h; rw [h]; simp
  · rename_i h
    constructor
    · intro h'; cases h'
    · intro h'; exact absurd h' (h x)

/-- Latest value of a scalar after several observations of the same scalars. -/
theorem latest_flatMap {done : List (Observation N G)} {o : Observation N G} (h : SameVariables (done ++ [o])) (v : String) (x : N) :
    latest ((done ++ [o]).flatMap writes) v = some (.num x) ↔ scalar o v = some x := by
  rw [List.flatMap_append]
  simp only [List.flatMap_cons, List.flatMap_nil, List.append_nil]
  rw [latest_append, scalar_iff]
  constructor
  · intro hx
    cases ho : latest (writes o) v with
    | some y => rw [ho] at hx; simpa using hx
    | none =>
      rw [ho] at hx
      simp only [Option.none_or] at hx
      -- then v was a scalar before, hence is one now
      have : ∃ o' ∈ done, (scalar o' v).isSome := by
        clear h
        induction done with
        | nil => simp [latest_nil] at hx
        | cons d ds ih =>
          rw [List.flatMap_cons, latest_append] at hx
          cases hd : latest (ds.flatMap writes) v with
          | some y =>
            rw [hd] at hx
            simp only [Option.some_or, Option.some.injEq] at hx
            subst hx
            obtain ⟨o', ho', hs⟩ := ih hd
            exact ⟨o', List.mem_cons_of_mem _ ho', hs⟩
          | none =>
            rw [hd] at hx
            simp only [Option.none_or] at hx
            exact ⟨d, List.mem_cons_self, by rw [scalar_iff.mpr hx]; rfl⟩
      obtain ⟨o', ho', hs⟩ := this
      have := h o' (List.mem_append_left _ ho') o (List.mem_append_right _ (List.mem_singleton_self _)) v hs
      obtain ⟨y, hy⟩ := Option.isSome_iff_exists.mp this
      rw [scalar_iff, ho] at hy
      cases hy
  · intro hx
    rw [hx]
    rfl

/-- What is known of the observer after the observations `done`. -/
structure EInv (body : String) (done : List (Observation N G))
    (s : Observer (StdMap String (List N)) (Val N G) × List (Res N)) : Prop where
  inv : Inv s.1 (done.flatMap writes)
  ini : s.1.initialized = true ∨ done = []
  sorted : s.1.sub.Sorted
  content : ∀ v, s.1.sub.find v = if done ≠ [] ∧ ∀ o ∈ done, (scalar o v).isSome then some (done.filterMap (fun o => scalar o v)) else none
  len : s.2.length = done.length
  extras : ∀ r ∈ s.2, r.extra.Sorted
  results : ∀ (i : Nat) (o : Observation N G) (r : Res N), done[i]? = some o → s.2[i]? = some r → Matches body o r

theorem scalar_t {o : Observation N G} (h : "t" ∉ o.2.map Prod.fst) : scalar o "t" = some o.1 := by
  rw [scalar_iff]
  unfold writes writesOf
  rw [latest_cons]
  have : latest o.2 "t" = none := by
    rw [← Option.not_isSome_iff_eq_none, latest_isSome]
    exact h
  simp [this]

theorem filterMap_getElem? {α β : Type} (f : α → Option β) (l : List α) (h : ∀ a ∈ l, (f a).isSome) (i : Nat) :
    (l.filterMap f)[i]? = (l[i]?).bind f := by
  induction l generalizing i with
  | nil => simp
  | cons a l ih =>
    obtain ⟨b, hb⟩ := Option.isSome_iff_exists.mp (h a List.mem_cons_self)
    rw [List.filterMap_cons_some hb]
    cases i with
    | zero => simp [hb]
    | succ i => simpa using ih (fun x hx => h x (List.mem_cons_of_mem _ hx)) i

theorem filterMap_length {α β : Type} (f : α → Option β) (l : List α) (h : ∀ a ∈ l, (f a).isSome) :
    (l.filterMap f).length = l.length := by
  induction l with
  | nil => rfl
  | cons a l ih =>
    obtain ⟨b, hb⟩ := Option.isSome_iff_exists.mp (h a List.mem_cons_self)
    rw [List.filterMap_cons_some hb]
    simp [ih (fun x hx => h x (List.mem_cons_of_mem _ hx))]

theorem everything_step (zero : N) (body : String) (done : List (Observation N G)) (o : Observation N G)
    (s : Observer (StdMap String (List N)) (Val N G) × List (Res N)) (hs : EInv body done s)
    (hsame : SameVariables (done ++ [o])) (ht : ∀ o' ∈ done ++ [o], "t" ∉ o'.2.map Prod.fst) :
    ∃ s', everythingObserve zero body s o.1 o.2 = .ok s' ∧ EInv body (done ++ [o]) s' := by
  obtain ⟨o', ho', hinv', hini', hsub'⟩ := observeEverything_eq hs.inv o
  have hfl : (done ++ [o]).flatMap writes = done.flatMap writes ++ writes o := by simp
  rw [← hfl] at hinv' hsub'
  have hko : (o'.inits.keys).Nodup := StdMap.sorted_nodup hinv'.s2
  have hkv : ∀ v ∈ o'.inits.keys, (latest ((done ++ [o]).flatMap writes) v).isSome := by
    intro v hv
    rw [← hinv'.f2, StdMap.find_isSome]; exact hv
  have hvk : ∀ v x, latest ((done ++ [o]).flatMap writes) v = some x → v ∈ o'.inits.keys := by
    intro v x hx
    rw [← StdMap.find_isSome, hinv'.f2, hx]; rfl
  -- the map before the serializers
  have hmid : ∃ mid, o'.sub = (o'.inits.keys).foldl (fun m v => onVal (mapObs : Impl _ (Val N G)).serializer (latest ((done ++ [o]).flatMap writes) v) v m) mid ∧
      mid.Sorted ∧ (∀ v, (mid.find v).getD [] = done.filterMap (fun o => scalar o v) ∨ (scalar o v) = none) ∧
      (∀ v, (mid.find v).isSome → (scalar o v).isSome) := by
    by_cases hd : done = []
    · subst hd
      have hini : s.1.sub.find = fun _ => none := by funext v; rw [hs.content]; simp
      cases hi : s.1.initialized with
      | true =>
        rw [hi] at hsub'
        simp only [if_true] at hsub'
        refine ⟨_, hsub', hs.sorted, fun v => Or.inl ?_, fun v hv => ?_⟩
        · rw [hini]; rfl
        · rw [hini] at hv; simp at hv
      | false =>
        rw [hi] at hsub'
        simp only [Bool.false_eq_true, if_false] at hsub'
        obtain ⟨k1, k2, k3⟩ := init_loop (latest (([] ++ [o]).flatMap writes)) o'.inits.keys hkv s.1.sub hs.sorted
          (fun v => Or.inl (by rw [hini]))
        refine ⟨_, hsub', k1, fun v => Or.inl ?_, fun v hv => ?_⟩
        · rcases k2 v with h | h <;> rw [h] <;> rfl
        · rcases k3 v hv with h | ⟨x, h⟩
          · rw [hini] at h; simp at h
          · rw [(latest_flatMap hsame v x).mp h]; rfl
    · have hi : s.1.initialized = true := by
        rcases hs.ini with h | h
        · exact h
        · exact absurd h hd
      rw [hi] at hsub'
      simp only [if_true] at hsub'
      obtain ⟨o1, ho1⟩ := List.exists_mem_of_ne_nil _ hd
      refine ⟨_, hsub', hs.sorted, fun v => ?_, fun v hv => ?_⟩
      · by_cases hsv : (scalar o v).isSome
        · left
          have : ∀ o' ∈ done, (scalar o' v).isSome := fun o' ho' =>
            hsame o (List.mem_append_right _ (List.mem_singleton_self _)) o' (List.mem_append_left _ ho') v hsv
          rw [hs.content, if_pos ⟨hd, this⟩]
          rfl
        · right
          simpa using hsv
      · rw [hs.content] at hv
        split at hv
        · rename_i hall
          exact hsame o1 (List.mem_append_left _ ho1) o (List.mem_append_right _ (List.mem_singleton_self _)) v (hall.2 o1 ho1)
        · simp at hv
  obtain ⟨mid, hm1, hm2, hm3, hm4⟩ := hmid
  obtain ⟨k1, k2⟩ := ser_loop (latest ((done ++ [o]).flatMap writes)) o'.inits.keys hko hkv mid hm2
  rw [← hm1] at k1 k2
  have hcontent : ∀ v, o'.sub.find v = if (done ++ [o]) ≠ [] ∧ ∀ o' ∈ done ++ [o], (scalar o' v).isSome
      then some ((done ++ [o]).filterMap (fun o => scalar o v)) else none := by
    intro v
    rw [k2 v]
    by_cases hsv : (scalar o v).isSome
    · obtain ⟨x, hx⟩ := Option.isSome_iff_exists.mp hsv
      have hl := (latest_flatMap hsame v x).mpr hx
      rw [if_pos (hvk v _ hl), hl]
      simp only
      have hall : ∀ o' ∈ done ++ [o], (scalar o' v).isSome := fun o' ho' =>
        hsame o (List.mem_append_right _ (List.mem_singleton_self _)) o' ho' v hsv
      rw [if_pos ⟨by simp, hall⟩]
      rcases hm3 v with h | h
      · rw [h, List.filterMap_append]
        simp [hx]
      · rw [h] at hx; cases hx
    · have hno : ¬ ((done ++ [o]) ≠ [] ∧ ∀ o' ∈ done ++ [o], (scalar o' v).isSome) := fun h =>
        hsv (h.2 o (List.mem_append_right _ (List.mem_singleton_self _)))
      rw [if_neg hno]
      have hmid0 : mid.find v = none := by
        rw [← Option.not_isSome_iff_eq_none]
        exact fun h => hsv (hm4 v h)
      have hnl : ∀ x, latest ((done ++ [o]).flatMap writes) v ≠ some (.num x) := fun x h => by
        apply hsv
        rw [(latest_flatMap hsame v x).mp h]; rfl
      split
      · rename_i x hx
        split at hx
        · exact absurd hx (hnl x)
        · cases hx
      · exact hmid0
  -- the results
  have hlen : ∀ p ∈ o'.sub, p.2.length = (done ++ [o]).length := by
    intro p hp
    have hf := StdMap.find_of_mem k1 hp
    rw [hcontent] at hf
    split at hf
    · rename_i hall
      rw [← Option.some.inj hf]
      exact filterMap_length _ _ hall.2
    · cases hf
  have htall : ∀ o' ∈ done ++ [o], (scalar o' "t").isSome := fun o' ho' => by rw [scalar_t (ht o' ho')]; rfl
  have hne : o'.sub ≠ [] := by
    intro h0
    have := hcontent "t"
    rw [h0, if_pos ⟨by simp, htall⟩] at this
    simp [StdMap.find] at this
  obtain ⟨f1, f2⟩ := foldl_add zero body (done ++ [o]).length o'.sub hlen hne s.2 (by rw [hs.len]; simp)
  refine ⟨(o', o'.sub.foldl (fun res kv => add zero (inserter zero body kv.1) res kv.2) s.2), ?_, hinv', Or.inl hini', k1, hcontent, f1, ?_, ?_⟩
  · unfold everythingObserve
    rw [ho']
    rfl
  · -- extras
    intro r hr
    obtain ⟨i, hi⟩ := List.mem_iff_getElem?.mp hr
    have hilt : i < (done ++ [o]).length := by
      rw [← f1]
      exact (List.getElem?_eq_some_iff.mp hi).1
    simp only at hi
    rw [f2 i hilt] at hi
    cases hi
    refine (insertAll_spec zero body _ ?_ _ ?_).1
    · cases hsi : s.2[i]? with
      | none => exact List.Pairwise.nil
      | some r0 => exact hs.extras r0 (List.mem_of_getElem? hsi)
    · rw [List.map_map]
      exact StdMap.sorted_nodup k1
  · intro i oi r hoi hr
    have hilt : i < (done ++ [o]).length := (List.getElem?_eq_some_iff.mp hoi).1
    simp only at hr
    rw [f2 i hilt] at hr
    have hoimem : oi ∈ done ++ [o] := List.mem_of_getElem? hoi
    have hr0 : ((s.2[i]?).getD (Res.empty zero)).extra.Sorted := by
      cases hsi : s.2[i]? with
      | none => exact List.Pairwise.nil
      | some r0 => exact hs.extras r0 (List.mem_of_getElem? hsi)
    have hkn : ((o'.sub.map (fun p => (p.1, (p.2[i]?).getD zero))).map Prod.fst).Nodup := by
      rw [List.map_map]
      exact StdMap.sorted_nodup k1
    obtain ⟨a1, a2, a3, a4, a5, a6⟩ := insertAll_spec zero body _ hr0 _ hkn
    cases hr
    -- what the map gives for a variable
    have hval : ∀ v x, scalar oi v = some x → ((o'.sub.map (fun p => (p.1, (p.2[i]?).getD zero))).find? (fun p => p.1 = v)).map Prod.snd = some x := by
      intro v x hx
      have hall : ∀ o'' ∈ done ++ [o], (scalar o'' v).isSome := fun o'' ho'' => hsame oi hoimem o'' ho'' v (by rw [hx]; rfl)
      rw [find_ext_of_map (fun l : List N => (l[i]?).getD zero), hcontent, if_pos ⟨by simp, hall⟩, Option.map_some, filterMap_getElem? _ _ hall, hoi]
      simp [hx]
    have hnone : ∀ v, scalar oi v = none → ((o'.sub.map (fun p => (p.1, (p.2[i]?).getD zero))).find? (fun p => p.1 = v)).map Prod.snd = none := by
      intro v hx
      rw [find_ext_of_map (fun l : List N => (l[i]?).getD zero), hcontent, if_neg]
      · rfl
      · intro h
        have := h.2 oi hoimem
        rw [hx] at this
        simp at this
    refine ⟨?_, ?_, ?_⟩
    · rw [a2, hval "t" oi.1 (scalar_t (ht oi hoimem))]
      rfl
    · intro hst
      have hmem : ∀ j < 13, ∃ x, scalar oi (stateName body j) = some x ∧
          (stateName body j, x) ∈ o'.sub.map (fun p => (p.1, (p.2[i]?).getD zero)) := by
        intro j hj
        obtain ⟨x, hx⟩ := Option.isSome_iff_exists.mp (hst j hj)
        have := hval _ _ hx
        obtain ⟨p, hp1, hp2⟩ := Option.map_eq_some_iff.mp this
        have hp3 := List.mem_of_find?_eq_some hp1
        have hp4 := List.find?_some hp1
        simp only [decide_eq_true_eq] at hp4
        refine ⟨x, hx, ?_⟩
        rw [← hp4, ← hp2]
        exact hp3
      refine ⟨a3 (Or.inr ⟨0, by decide, ?_⟩), ?_⟩
      · obtain ⟨x, _, hx⟩ := hmem 0 (by decide)
        exact List.mem_map_of_mem hx
      · intro j hj
        obtain ⟨x, hx1, hx2⟩ := hmem j hj
        rw [a4 j hj x hx2, hx1]
    · intro v hv hns
      rw [a6 v hv hns]
      cases hx : scalar oi v with
      | some x => rw [hval v x hx]; rfl
      | none =>
        rw [hnone v hx, Option.none_or]
        cases hsi : s.2[i]? with
        | none => simp [Res.empty, StdMap.find]
        | some r0 =>
          have hid : i < done.length := by rw [← hs.len]; exact (List.getElem?_eq_some_iff.mp hsi).1
          have : done[i]? = some oi := by
            rw [List.getElem?_append_left hid] at hoi; exact hoi
          have hm := (hs.results i oi r0 this hsi).others v hv hns
          rw [hx] at hm
          exact hm

/-- **C37 (partial).** As long as the same scalars are observed at all dates (and nothing but
the date is written under the name `t`), the results of a co-simulation have one entry per
observation, in order; each has the date of its observation, its thirteen states, and all the
other scalars observed at that date as extra observations, and nothing else. Missing: variables
that appear after the first observation (see `everything_late_variable_refuted`). -/
theorem everything_results_partial (zero : N) (body : String) (obs : List (Observation N G))
    (hsame : SameVariables obs) (ht : ∀ o ∈ obs, "t" ∉ o.2.map Prod.fst) :
    ∃ s, everythingAll zero body (Observer.init [] [], []) obs = .ok s ∧
      s.2.length = obs.length ∧
      ∀ (i : Nat) (o : Observation N G) (r : Res N), obs[i]? = some o → s.2[i]? = some r → Matches body o r := by
  have key : ∀ (l done : List (Observation N G)) (s : Observer (StdMap String (List N)) (Val N G) × List (Res N)),
      done ++ l = obs → EInv body done s → ∃ s', everythingAll zero body s l = .ok s' ∧ EInv body obs s' := by
    intro l
    induction l with
    | nil =>
      intro done s hd hs
      rw [List.append_nil] at hd
      subst hd
      exact ⟨s, rfl, hs⟩
    | cons o l ih =>
      intro done s hd hs
      have hsub : ∀ o' ∈ done ++ [o], o' ∈ obs := by
        intro o' h
        rw [← hd]
        rcases List.mem_append.mp h with h | h
        · exact List.mem_append_left _ h
        · exact List.mem_append_right _ (List.mem_singleton.mp h ▸ List.mem_cons_self)
      obtain ⟨s', h1, h2⟩ := everything_step zero body done o s hs
        (fun a ha b hb v h => hsame a (hsub a ha) b (hsub b hb) v h) (fun a ha => ht a (hsub a ha))
      obtain ⟨s'', h3, h4⟩ := ih (done ++ [o]) s' (by simpa using hd) h2
      refine ⟨s'', ?_, h4⟩
      rw [everythingAll, h1]
      exact h3
  obtain ⟨s, h1, h2⟩ := key obs [] (Observer.init [] [], []) rfl
    ⟨inv_init _ _, Or.inr rfl, List.Pairwise.nil, fun v => by simp [Observer.init, StdMap.find], rfl, by simp, by simp⟩
  exact ⟨s, h1, h2.len, h2.results⟩

/-- Two observations of a body, the states of which are 1...13, then 2...14, with a force. -/
def twoObs : List (Observation Nat Unit) :=
  [(0, [("x(b)", .num 1), ("y(b)", .num 2), ("z(b)", .num 3), ("u(b)", .num 4), ("v(b)", .num 5), ("w(b)", .num 6),
        ("p(b)", .num 7), ("q(b)", .num 8), ("r(b)", .num 9), ("qr(b)", .num 10), ("qi(b)", .num 11), ("qj(b)", .num 12),
        ("qk(b)", .num 13), ("Fx(m,b,NED)", .num 100), ("waves", .grid ())]),
   (7, [("x(b)", .num 2), ("y(b)", .num 3), ("z(b)", .num 4), ("u(b)", .num 5), ("v(b)", .num 6), ("w(b)", .num 7),
        ("p(b)", .num 8), ("q(b)", .num 9), ("r(b)", .num 10), ("qr(b)", .num 11), ("qi(b)", .num 12), ("qj(b)", .num 13),
        ("qk(b)", .num 14), ("Fx(m,b,NED)", .num 200), ("waves", .grid ())])]

/-- The observer really gives these results. -/
example : (everythingAll 0 "b" (Observer.init [] [], []) twoObs).map Prod.snd =
    .ok [{ t := 0, x := [1, 2, 3, 4, 5, 6, 7, 8, 9, 10, 11, 12, 13], extra := [("Fx(m,b,NED)", 100)] },
         { t := 7, x := [2, 3, 4, 5, 6, 7, 8, 9, 10, 11, 12, 13, 14], extra := [("Fx(m,b,NED)", 200)] }] := by
  decide +kernel

/-- C37: the hypotheses hold of them. -/
example : SameVariables twoObs ∧ (∀ o ∈ twoObs, "t" ∉ o.2.map Prod.fst) := by
  have hk : ∀ o ∈ twoObs, ∀ v, (scalar o v).isSome → v ∈ ["t", "x(b)", "y(b)", "z(b)", "u(b)", "v(b)", "w(b)", "p(b)", "q(b)", "r(b)",
      "qr(b)", "qi(b)", "qj(b)", "qk(b)", "Fx(m,b,NED)"] := by
    intro o ho v hv
    obtain ⟨x, hx⟩ := Option.isSome_iff_exists.mp hv
    have hx := scalar_iff.mp hx
    have hmem : v ∈ (writes o).map Prod.fst := by rw [← latest_isSome, hx]; rfl
    by_cases hw : v = "waves"
    · subst hw
      have : ∀ o ∈ twoObs, (match latest (writes o) "waves" with | some (.num _) => true | _ => false) = false := by decide +kernel
      have := this o ho
      rw [hx] at this
      simp at this
    · have h2 : ∀ o ∈ twoObs, ∀ v ∈ (writes o).map Prod.fst, v ≠ "waves" → v ∈ ["t", "x(b)", "y(b)", "z(b)", "u(b)", "v(b)", "w(b)", "p(b)", "q(b)", "r(b)",
        "qr(b)", "qi(b)", "qj(b)", "qk(b)", "Fx(m,b,NED)"] := by decide +kernel
      exact h2 o ho v hmem hw
  refine ⟨?_, by decide +kernel⟩
  intro o ho o' ho' v hv
  have h3 : ∀ o ∈ twoObs, ∀ v ∈ ["t", "x(b)", "y(b)", "z(b)", "u(b)", "v(b)", "w(b)", "p(b)", "q(b)", "r(b)",
        "qr(b)", "qi(b)", "qj(b)", "qk(b)", "Fx(m,b,NED)"], (scalar o v).isSome := by decide +kernel
  exact h3 o' ho' v (hk o ho v hv)

/-- C37 is false for a variable that is not observed at the first date: the value observed at
the second date (9) is put in the result of the first one. -/
theorem everything_late_variable_refuted :
    (everythingAll 0 "b" (Observer.init [] [], [])
      [((0 : Nat), ([] : List (String × Val Nat Unit))), (1, [("F", .num 9)])]).map Prod.snd =
    .ok [{ t := 0, x := [], extra := [("F", 9)] }, { t := 1, x := [], extra := [] }] := by
  decide +kernel

end Xdyn.Obs

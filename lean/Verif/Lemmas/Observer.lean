import Verif.Spec.Observer

namespace Xdyn.Obs

variable {σ ν : Type}

theorem latest_nil (v : String) : latest ([] : List (String × ν)) v = none := rfl

theorem latest_append (a b : List (String × ν)) (v : String) :
    latest (a ++ b) v = (latest b v).or (latest a v) := by
  unfold latest
  rw [List.reverse_append, List.find?_append]
  cases List.find? (fun p => decide (p.1 = v)) b.reverse <;> rfl

theorem latest_single (p : String × ν) (v : String) : latest [p] v = if p.1 = v then some p.2 else none := by
  unfold latest
  simp only [List.reverse_cons, List.reverse_nil, List.nil_append, List.find?_cons]
  by_cases h : p.1 = v <;> simp [h]

theorem latest_cons (p : String × ν) (l : List (String × ν)) (v : String) :
    latest (p :: l) v = (latest l v).or (if p.1 = v then some p.2 else none) := by
  rw [← List.singleton_append, latest_append, latest_single]

theorem latest_isSome (l : List (String × ν)) (v : String) : (latest l v).isSome ↔ v ∈ l.map Prod.fst := by
  induction l with
  | nil => simp [latest_nil]
  | cons p l ih =>
    rw [latest_cons]
    simp only [List.map_cons, List.mem_cons, ← ih]
    cases h : latest l v with
    | none =>
      by_cases hp : p.1 = v
      · simp [hp]
      · simp [hp, Ne.symm hp]
    | some x => simp

/-- The maps of the observer hold the latest value of each variable. -/
structure Inv (o : Observer σ ν) (past : List (String × ν)) : Prop where
  s1 : o.serialize.Sorted
  s2 : o.inits.Sorted
  f1 : ∀ v, o.serialize.find v = latest past v
  f2 : ∀ v, o.inits.find v = latest past v

theorem inv_init (req : List String) (s : σ) : Inv (Observer.init req s : Observer σ ν) [] :=
  ⟨List.Pairwise.nil, List.Pairwise.nil, fun _ => rfl, fun _ => rfl⟩

theorem inv_write {o : Observer σ ν} {past : List (String × ν)} (h : Inv o past) (p : String × ν) :
    Inv (o.write p) (past ++ [p]) := by
  refine ⟨StdMap.sorted_set _ _ _ h.s1, StdMap.sorted_set _ _ _ h.s2, fun v => ?_, fun v => ?_⟩
  · show (o.serialize.set p.1 p.2).find v = _
    rw [StdMap.find_set _ _ _ _ h.s1, latest_append, latest_single, h.f1]
    by_cases hv : v = p.1
    · simp [hv]
    · simp [hv, Ne.symm hv]
  · show (o.inits.set p.1 p.2).find v = _
    rw [StdMap.find_set _ _ _ _ h.s2, latest_append, latest_single, h.f2]
    by_cases hv : v = p.1
    · simp [hv]
    · simp [hv, Ne.symm hv]

theorem foldl_write_fields (o : Observer σ ν) (ws : List (String × ν)) :
    (ws.foldl Observer.write o).sub = o.sub ∧ (ws.foldl Observer.write o).requested = o.requested ∧
    (ws.foldl Observer.write o).initialized = o.initialized := by
  induction ws generalizing o with
  | nil => exact ⟨rfl, rfl, rfl⟩
  | cons p ws ih => exact ih (o.write p)

theorem inv_writes {o : Observer σ ν} {past : List (String × ν)} (h : Inv o past) (ws : List (String × ν)) :
    Inv (ws.foldl Observer.write o) (past ++ ws) := by
  induction ws generalizing o past with
  | nil => simpa using h
  | cons p ws ih =>
    have := ih (inv_write h p)
    simpa [List.append_assoc] using this

theorem perform_append (a b : List (σ → σ)) (s : σ) : perform (a ++ b) s = perform b (perform a s) :=
  List.foldl_append

theorem perform_cons (a : σ → σ) (b : List (σ → σ)) (s : σ) : perform (a :: b) s = perform b (a s) := rfl

theorem loopVars_eq (m : StdMap String ν) (f : ν → String → σ → σ) (sep : σ → σ) (n : Nat)
    (vs : List String) (i : Nat) (s : σ) (hi : i + vs.length = n) :
    loopVars m f sep n vs i s =
      match vs.mapM (fun v => (m.find v).map (fun x => f x v)) with
      | none => .error (.throw "InvalidInputException")
      | some fs => .ok (perform (fs.intersperse sep) s) := by
  induction vs generalizing i s with
  | nil => simp [loopVars, perform]
  | cons v vs ih =>
    unfold loopVars
    rw [List.mapM_cons]
    cases hv : m.find v with
    | none => simp
    | some x =>
      simp only [Option.map_some]
      rw [ih (i + 1) _ (by simp at hi; omega)]
      cases vs with
      | nil =>
        have : ¬ (i < n - 1) := by simp at hi; omega
        simp [this, perform]
      | cons w ws =>
        have : i < n - 1 := by simp at hi; omega
        simp only [this, if_true]
        cases hr : List.mapM (fun v => Option.map (fun x => f x v) (m.find v)) (w :: ws) with
        | none => simp
        | some fs =>
          have hne : fs ≠ [] := by
            intro h0
            subst h0
            rw [List.mapM_cons] at hr
            cases h1 : Option.map (fun x => f x w) (m.find w) with
            | none => simp [h1] at hr
            | some y =>
              cases h2 : List.mapM (fun v => Option.map (fun x => f x v) (m.find v)) ws with
              | none => simp [h1, h2] at hr
              | some z => simp [h1, h2] at hr
          obtain ⟨g, gs, rfl⟩ : ∃ g gs, fs = g :: gs := by
            cases fs with
            | nil => exact absurd rfl hne
            | cons g gs => exact ⟨g, gs, rfl⟩
          simp only [pure, Option.bind_eq_bind, Option.bind_some]
          rfl

theorem loopVars_inv {m : StdMap String ν} {past : List (String × ν)} (hm : ∀ v, m.find v = latest past v)
    (f : ν → String → σ → σ) (sep : σ → σ) (req : List String) (s : σ) :
    loopVars m f sep req.length req 0 s =
      match lineOf past req f sep with
      | none => .error (.throw "InvalidInputException")
      | some as => .ok (perform as s) := by
  rw [loopVars_eq _ _ _ _ _ _ _ (by simp)]
  have : (fun v => (m.find v).map (fun x => f x v)) = (fun v => (latest past v).map (fun x => f x v)) := by
    funext v; rw [hm]
  rw [this]
  unfold lineOf
  cases List.mapM (fun v => Option.map (fun x => f x v) (latest past v)) req <;> rfl

/-- A requested variable that has no value makes the line impossible. -/
theorem lineOf_isSome (writes : List (String × ν)) (req : List String) (f : ν → String → σ → σ) (sep : σ → σ) :
    (lineOf writes req f sep).isSome ↔ ∀ v ∈ req, v ∈ writes.map Prod.fst := by
  unfold lineOf
  rw [Option.isSome_map]
  induction req with
  | nil => simp
  | cons v req ih =>
    rw [List.mapM_cons]
    simp only [List.mem_cons, forall_eq_or_imp, ← latest_isSome] at ih ⊢
    cases h1 : latest writes v with
    | none => simp
    | some x =>
      simp only [Option.map_some, Option.isSome_some, true_and, ← ih]
      cases h2 : List.mapM (fun v => Option.map (fun x => f x v) (latest writes v)) req <;> simp

/-- Initialised observer: one more observation. -/
theorem observe_initialized (I : Impl σ ν) {o : Observer σ ν} {past : List (String × ν)} (h : Inv o past)
    (hi : o.initialized = true) (ob : ν × List (String × ν)) :
    o.observe I ob.1 ob.2 =
      match lineOf (past ++ writesOf ob) o.requested I.serializer I.flushValueDuringWrite with
      | none => .error (.throw "InvalidInputException")
      | some as => .ok { (writesOf ob).foldl Observer.write o with
            sub := perform ([I.beforeWrite] ++ as ++ [I.flushAfterWrite]) o.sub } := by
  have hw := inv_writes h (writesOf ob)
  obtain ⟨e1, e2, e3⟩ := foldl_write_fields o (writesOf ob)
  unfold Observer.observe
  change (do
    let o' ← ((writesOf ob).foldl Observer.write o).initializeSerialization I ((writesOf ob).foldl Observer.write o).requested
    o'.serializeVariables I o'.requested) = _
  unfold Observer.initializeSerialization
  rw [e3, hi]
  simp only [Bool.not_true, Bool.false_eq_true, if_false, bind, Except.bind, pure, Except.pure]
  unfold Observer.serializeVariables
  simp only [bind, Except.bind, pure, Except.pure]
  rw [loopVars_inv hw.f1, e2, e1]
  cases lineOf (past ++ writesOf ob) o.requested I.serializer I.flushValueDuringWrite with
  | none => rfl
  | some as =>
    simp only [perform_append, List.singleton_append, perform_cons]
    rw [show ((writesOf ob).foldl Observer.write o) = { (writesOf ob).foldl Observer.write o with initialized := true } by
      rw [← hi, ← e3]]
    rfl

/-- First observation. -/
theorem observe_first (I : Impl σ ν) {o : Observer σ ν} {past : List (String × ν)} (h : Inv o past)
    (hi : o.initialized = false) (ob : ν × List (String × ν)) :
    o.observe I ob.1 ob.2 =
      match lineOf (past ++ writesOf ob) o.requested I.initializer I.flushValueDuringInitialization,
            lineOf (past ++ writesOf ob) o.requested I.serializer I.flushValueDuringWrite with
      | some ts, some as => .ok { (writesOf ob).foldl Observer.write o with
            initialized := true,
            sub := perform (ts ++ [I.flushAfterInitialization] ++ ([I.beforeWrite] ++ as ++ [I.flushAfterWrite])) o.sub }
      | _, _ => .error (.throw "InvalidInputException") := by
  have hw := inv_writes h (writesOf ob)
  obtain ⟨e1, e2, e3⟩ := foldl_write_fields o (writesOf ob)
  unfold Observer.observe
  change (do
    let o' ← ((writesOf ob).foldl Observer.write o).initializeSerialization I ((writesOf ob).foldl Observer.write o).requested
    o'.serializeVariables I o'.requested) = _
  unfold Observer.initializeSerialization
  rw [e3, hi]
  simp only [Bool.not_false, if_true, bind, Except.bind, pure, Except.pure]
  rw [loopVars_inv hw.f2, e2, e1]
  cases lineOf (past ++ writesOf ob) o.requested I.initializer I.flushValueDuringInitialization with
  | none => rfl
  | some ts =>
    unfold Observer.serializeVariables
    simp only [bind, Except.bind, pure, Except.pure]
    rw [loopVars_inv hw.f1]
    cases lineOf (past ++ writesOf ob) o.requested I.serializer I.flushValueDuringWrite with
    | none => rfl
    | some as =>
      simp only [perform_append, List.singleton_append, perform_cons]
      rfl

theorem observeAll_initialized (I : Impl σ ν) {o : Observer σ ν} {past : List (String × ν)} (h : Inv o past)
    (hi : o.initialized = true) (obs : List (ν × List (String × ν))) :
    (o.observeAll I obs).map Observer.sub =
      match expectedLines I o.requested past obs with
      | none => .error (.throw "InvalidInputException")
      | some as => .ok (perform as o.sub) := by
  induction obs generalizing o past with
  | nil => rfl
  | cons ob l ih =>
    unfold Observer.observeAll
    simp only [bind, Except.bind]
    rw [observe_initialized I h hi]
    unfold expectedLines
    cases hl : lineOf (past ++ writesOf ob) o.requested I.serializer I.flushValueDuringWrite with
    | none => rfl
    | some as =>
      simp only [Option.bind_eq_bind, Option.bind_some]
      have hw := inv_writes h (writesOf ob)
      obtain ⟨e1, e2, e3⟩ := foldl_write_fields o (writesOf ob)
      have key := ih (o := { (writesOf ob).foldl Observer.write o with
            sub := perform ([I.beforeWrite] ++ as ++ [I.flushAfterWrite]) o.sub }) (past := past ++ writesOf ob)
        ⟨hw.s1, hw.s2, hw.f1, hw.f2⟩ (by rw [← hi]; exact e3)
      rw [key]
      simp only [e2]
      cases expectedLines I o.requested (past ++ writesOf ob) l with
      | none => rfl
      | some rest =>
        simp only [Option.bind_some, pure]
        rw [perform_append _ rest]

theorem observeAll_eq (I : Impl σ ν) (req : List String) (s : σ) (obs : List (ν × List (String × ν))) :
    ((Observer.init req s).observeAll I obs).map Observer.sub =
      match expectedRun I req obs with
      | none => .error (.throw "InvalidInputException")
      | some as => .ok (perform as s) := by
  cases obs with
  | nil => rfl
  | cons ob l =>
    unfold Observer.observeAll expectedRun expectedLines
    simp only [bind, Except.bind]
    have h0 := inv_init (ν := ν) req s
    rw [observe_first I h0 rfl]
    simp only [List.nil_append]
    have hreq : (Observer.init req s : Observer σ ν).requested = req := rfl
    rw [hreq]
    cases hl : lineOf (writesOf ob) req I.initializer I.flushValueDuringInitialization with
    | none => rfl
    | some ts =>
      cases hl2 : lineOf (writesOf ob) req I.serializer I.flushValueDuringWrite with
      | none => rfl
      | some as =>
        simp only [Option.bind_some, pure]
        have hw := inv_writes h0 (writesOf ob)
        obtain ⟨e1, e2, e3⟩ := foldl_write_fields (Observer.init req s : Observer σ ν) (writesOf ob)
        have key := observeAll_initialized I (o := { (writesOf ob).foldl Observer.write (Observer.init req s) with
              initialized := true,
              sub := perform (ts ++ [I.flushAfterInitialization] ++ ([I.beforeWrite] ++ as ++ [I.flushAfterWrite])) s })
          (past := writesOf ob) ⟨hw.s1, hw.s2, hw.f1, hw.f2⟩ rfl l
        change Except.map Observer.sub (Observer.observeAll I _ l) = _
        rw [show (Observer.init req s : Observer σ ν).sub = s from rfl]
        rw [key]
        simp only [e2, hreq]
        cases expectedLines I req (writesOf ob) l with
        | none => rfl
        | some rest =>
          simp only [Option.bind_some]
          simp only [perform_append]

end Xdyn.Obs

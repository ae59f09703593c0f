import Verif.Lemmas.Dict
import Verif.Props.Observer

/-
JSON and websocket outputs: C35 (every value reaches the output), C36 (separators),
C76 (each line is a well formed JSON object).
-/

namespace Xdyn.Obs

variable {N : Type}

/-! ### C36 -/

/-- **C36.** For a non-empty map, `flushMap` writes one `"key":value` per entry, in the order
of the keys, with exactly `n - 1` commas, each of them between two entries. -/
theorem flushMap_entries (m : StdMap String N) (hm : m ≠ []) :
    flushMap m false = [Tok.comma].intercalate (m.map (fun p => [.str p.1, .colon, .num p.2])) ∧
    flushMap m true = [.lbrace] ++ [Tok.comma].intercalate (m.map (fun p => [.str p.1, .colon, .num p.2])) ++ [.rbrace] ∧
    (flushMap m false).countP (fun t => match t with | .comma => true | _ => false) = m.length - 1 ∧
    flushMap m true = (flatObj m).toks := by
  have e : flushMap m false = [Tok.comma].intercalate (m.map (fun p => [.str p.1, .colon, .num p.2])) := by
    unfold flushMap
    rw [if_neg (by simpa using hm), flushLoop_eq _ _ _ (by simp)]
    simp
  refine ⟨e, ?_, ?_, flatObj_toks m hm⟩
  · unfold flushMap
    rw [if_neg (by simpa using hm), flushLoop_eq _ _ _ (by simp)]
    simp
  · rw [e]
    clear e
    induction m with
    | nil => exact absurd rfl hm
    | cons p m ih =>
      cases m with
      | nil => simp [List.intercalate]
      | cons q m =>
        have := ih (by simp)
        simp only [List.intercalate, List.map_cons, List.intersperse_cons₂, List.flatten_cons, List.countP_append] at this ⊢
        rw [this]
        simp
        omega

example : flushMap [("p", (1 : Nat)), ("q", 2), ("r", 3)] true =
    [.lbrace, .str "p", .colon, .num 1, .comma, .str "q", .colon, .num 2, .comma, .str "r", .colon, .num 3, .rbrace] := by
  decide

/-! ### Runs of the JSON observer -/

/-- The values of the requested variables are put in the dictionaries. -/
def putAll (ofNat : Nat → N) (req : List String) (d : Dict N) (val : String → Val N (Grid N)) : Dict N :=
  req.foldl (fun d v => (json ofNat).serializer (val v) v d) d

theorem lineOf_map {σ ν : Type} {writes : List (String × ν)} {req : List String} (d : ν)
    (h : ∀ v ∈ req, v ∈ writes.map Prod.fst) (f : ν → String → σ → σ) (sep : σ → σ) :
    lineOf writes req f sep = some ((req.map (fun v => f ((latest writes v).getD d) v)).intersperse sep) := by
  unfold lineOf
  rw [mapM_some _ (fun v => f ((latest writes v).getD d) v)]
  · rfl
  · intro v hv
    obtain ⟨x, hx⟩ := Option.isSome_iff_exists.mp ((latest_isSome _ _).mpr (h v hv))
    rw [hx]
    rfl

theorem json_expectedLines (ofNat : Nat → N) (d0 : Val N (Grid N)) (req : List String) (past : List (String × Val N (Grid N)))
    (obs : List (Val N (Grid N) × List (String × Val N (Grid N))))
    (h : ∀ o l', obs = o :: l' → ∀ v ∈ req, v ∈ (past ++ writesOf o).map Prod.fst) (d : Dict N) :
    (expectedLines (json ofNat) req past obs).map (fun as => perform as d) =
      some ((valuations d0 past obs).foldl (fun d val => (putAll ofNat req d val).flushAndSend) d) := by
  induction obs generalizing past d with
  | nil => rfl
  | cons o l ih =>
    have h0 := h o l rfl
    unfold expectedLines
    rw [lineOf_map d0 h0]
    have ih' := ih (past ++ writesOf o) (by
      intro o' l' _ v hv
      rw [List.map_append]
      exact List.mem_append_left _ (h0 v hv))
      ((putAll ofNat req d (fun v => (latest (past ++ writesOf o) v).getD d0)).flushAndSend)
    cases he : expectedLines (json ofNat) req (past ++ writesOf o) l with
    | none => rw [he] at ih'; simp at ih'
    | some rest =>
      rw [he] at ih'
      simp only [Option.map_some, Option.some.injEq] at ih'
      simp only [Option.bind_eq_bind, Option.bind_some, pure, Option.map_some, valuations, List.foldl_cons, ← ih']
      rw [perform_append, perform_append, perform_append]
      congr 2
      show (json ofNat).flushAfterWrite (perform _ d) = _
      rw [show (json ofNat).flushValueDuringWrite = fun (d : Dict N) => d from rfl, perform_intersperse_id, perform_map]
      rfl

theorem foldl_keep {σ α : Type} (l : List α) (s : σ) : List.foldl (fun s _ => s) s l = s := by
  induction l with
  | nil => rfl
  | cons _ l ih => exact ih

/-- State of the observer after a run. -/
theorem json_run (ofNat : Nat → N) (d0 : Val N (Grid N)) (req : List String)
    (ob : Val N (Grid N) × List (String × Val N (Grid N))) (l : List (Val N (Grid N) × List (String × Val N (Grid N))))
    (o' : Observer (Dict N) (Val N (Grid N)))
    (hrun : (Observer.init req Dict.init).observeAll (json ofNat) (ob :: l) = .ok o') :
    o'.sub = (valuations d0 [] (ob :: l)).foldl (fun d val => (putAll ofNat req d val).flushAndSend) Dict.init := by
  have hall : ∀ v ∈ req, v ∈ (writesOf ob).map Prod.fst := by
    intro v hv
    by_contra hne
    have hne' : v ≠ "t" ∧ v ∉ ob.2.map Prod.fst := by
      unfold writesOf at hne
      rw [List.map_cons, List.mem_cons] at hne
      exact not_or.mp hne
    rw [(observeAll_error_iff (json ofNat) req Dict.init ob l).mpr ⟨v, hv, hne'⟩] at hrun
    cases hrun
  have h := observeAll_spec (json ofNat) req Dict.init (ob :: l)
  rw [hrun, expectedRun, lineOf_map d0 hall] at h
  have hl := json_expectedLines ofNat d0 req [] (ob :: l) (by intro o l' e; cases e; simpa using hall) Dict.init
  cases he : expectedLines (json ofNat) req [] (ob :: l) with
  | none => rw [he] at hl; simp at hl
  | some rest =>
    rw [he] at hl h
    simp only [Option.map_some, Option.some.injEq] at hl
    simp only [Except.map, Option.bind_eq_bind, Option.bind_some, pure, Except.ok.injEq] at h
    rw [h, ← hl, perform_append, perform_append]
    congr 1
    show perform _ Dict.init = Dict.init
    rw [show (json ofNat).flushValueDuringInitialization = fun (d : Dict N) => d from rfl, perform_intersperse_id, perform_map]
    show List.foldl (fun s _ => s) Dict.init req = Dict.init
    exact foldl_keep req _

theorem putGrid_maps (ofNat : Nat → N) (d : Dict N) (g : Grid N) :
    (d.putGrid ofNat g).map1 = d.map1 ∧ (d.putGrid ofNat g).map2 = d.map2 := ⟨rfl, rfl⟩

theorem dinv_ser (ofNat : Nat → N) {d : Dict N} (h : DInv d) (x : Val N (Grid N)) (v : String) :
    DInv ((json ofNat).serializer x v d) := by
  cases x with
  | num x => exact dinv_put h x v
  | grid g => exact ⟨h.s1, h.s2, h.s3⟩

theorem dinv_putAll (ofNat : Nat → N) (req : List String) {d : Dict N} (h : DInv d) (val : String → Val N (Grid N)) :
    DInv (putAll ofNat req d val) := by
  unfold putAll
  induction req generalizing d with
  | nil => exact h
  | cons v r ih => exact ih (dinv_ser ofNat h (val v) v)

/-- Names are those used by xdyn, of a reasonable length. -/
def GoodNames (req : List String) : Prop :=
  ∀ v ∈ req, v.toList.length < npos ∧ ∃ key var, NameOf v key var

theorem lookup_ser (ofNat : Nat → N) {d : Dict N} (hd : DInv d) (x : Val N (Grid N)) {name key var : String}
    (h : NameOf name key var) (hlen : name.toList.length < npos) (key' var' : String) :
    ((json ofNat).serializer x name d).lookup key' var' =
      match x with
      | .num y => if key' = key ∧ var' = var then some y else d.lookup key' var'
      | .grid _ => d.lookup key' var' := by
  cases x with
  | num y => exact lookup_put hd y h hlen key' var'
  | grid g => rfl

theorem putAll_other (ofNat : Nat → N) {req : List String} (hreq : GoodNames req) {d : Dict N} (hd : DInv d)
    (val : String → Val N (Grid N)) (key var : String) (h : ∀ v ∈ req, ¬ NameOf v key var) :
    (putAll ofNat req d val).lookup key var = d.lookup key var := by
  induction req generalizing d with
  | nil => rfl
  | cons v r ih =>
    show (putAll ofNat r ((json ofNat).serializer (val v) v d) val).lookup key var = _
    rw [ih (fun w hw => hreq w (List.mem_cons_of_mem _ hw)) (dinv_ser ofNat hd _ _)
      (fun w hw => h w (List.mem_cons_of_mem _ hw))]
    obtain ⟨hl, k, va, hn⟩ := hreq v List.mem_cons_self
    rw [lookup_ser ofNat hd (val v) hn hl]
    cases val v with
    | grid g => rfl
    | num y =>
      have : ¬ (key = k ∧ var = va) := by
        rintro ⟨rfl, rfl⟩
        exact h v List.mem_cons_self hn
      simp [this]

theorem putAll_lookup (ofNat : Nat → N) {req : List String} (hreq : GoodNames req) {d : Dict N} (hd : DInv d)
    (val : String → Val N (Grid N)) {v key var : String} (hv : v ∈ req) (hn : NameOf v key var) {x : N}
    (hx : val v = .num x) : (putAll ofNat req d val).lookup key var = some x := by
  induction req generalizing d with
  | nil => simp at hv
  | cons w r ih =>
    show (putAll ofNat r ((json ofNat).serializer (val w) w d) val).lookup key var = _
    by_cases hvr : v ∈ r
    · exact ih (fun u hu => hreq u (List.mem_cons_of_mem _ hu)) (dinv_ser ofNat hd _ _) hvr
    · have hvw : v = w := by
        rcases List.mem_cons.mp hv with h | h
        · exact h
        · exact absurd h hvr
      subst hvw
      rw [putAll_other ofNat (fun u hu => hreq u (List.mem_cons_of_mem _ hu)) (dinv_ser ofNat hd _ _) val key var
        (fun u hu hnu => hvr (nameOf_injective hn hnu ▸ hu))]
      rw [lookup_ser ofNat hd (val v) hn (hreq v List.mem_cons_self).1, hx]
      simp

theorem flush_maps (d : Dict N) : d.flush.map1 = d.map1 ∧ d.flush.map2 = d.map2 ∧ d.flush.grid = d.grid ∧ d.flush.sent = d.sent := by
  unfold Dict.flush Dict.serializeGrid Dict.serialize2 Dict.serialize1
  refine ⟨?_, ?_, ?_, ?_⟩ <;> (dsimp only; split_ifs <;> rfl)

theorem flushAndSend_lookup (d : Dict N) (key var : String) : d.flushAndSend.lookup key var = d.lookup key var := by
  obtain ⟨h1, h2, _, _⟩ := flush_maps d
  unfold Dict.lookup Dict.flushAndSend
  dsimp only
  rw [h1, h2]

theorem dinv_flushAndSend {d : Dict N} (h : DInv d) : DInv d.flushAndSend := by
  obtain ⟨h1, h2, _, _⟩ := flush_maps d
  refine ⟨?_, ?_, ?_⟩
  · show d.flush.map1.Sorted
    rw [h1]; exact h.s1
  · show d.flush.map2.Sorted
    rw [h2]; exact h.s2
  · show ∀ p ∈ d.flush.map2, _
    rw [h2]; exact h.s3

/-- One observation. -/
def jsonStep (ofNat : Nat → N) (req : List String) (d : Dict N) (val : String → Val N (Grid N)) : Dict N :=
  (putAll ofNat req d val).flushAndSend

theorem dinv_steps (ofNat : Nat → N) (req : List String) {d : Dict N} (h : DInv d) (vals : List (String → Val N (Grid N))) :
    DInv (vals.foldl (jsonStep ofNat req) d) := by
  induction vals generalizing d with
  | nil => exact h
  | cons v vs ih => exact ih (dinv_flushAndSend (dinv_putAll ofNat req h v))

theorem steps_other (ofNat : Nat → N) {req : List String} (hreq : GoodNames req) {d : Dict N} (hd : DInv d)
    (vals : List (String → Val N (Grid N))) (key var : String) (h : ∀ v ∈ req, ¬ NameOf v key var) :
    (vals.foldl (jsonStep ofNat req) d).lookup key var = d.lookup key var := by
  induction vals generalizing d with
  | nil => rfl
  | cons v vs ih =>
    rw [List.foldl_cons, ih (d := jsonStep ofNat req d v) (dinv_flushAndSend (dinv_putAll ofNat req hd v))]
    rw [jsonStep, flushAndSend_lookup, putAll_other ofNat hreq hd v key var h]

/-- **C35.** With variable names of the forms used by xdyn, after any number of observations
the dictionaries written by the JSON and websocket observers hold the last value of every
requested scalar under its own key, and nothing else: distinct variables never overwrite each
other. -/
theorem dict_content_partial (ofNat : Nat → N) (d0 : Val N (Grid N)) (req : List String) (hreq : GoodNames req)
    (ob : Val N (Grid N) × List (String × Val N (Grid N))) (l : List (Val N (Grid N) × List (String × Val N (Grid N))))
    (o' : Observer (Dict N) (Val N (Grid N)))
    (hrun : (Observer.init req Dict.init).observeAll (json ofNat) (ob :: l) = .ok o') :
    ∃ last ∈ (valuations d0 [] (ob :: l)).getLast?,
      (∀ v ∈ req, ∀ key var x, NameOf v key var → last v = .num x → o'.sub.lookup key var = some x) ∧
      (∀ key var, (∀ v ∈ req, ¬ NameOf v key var) → o'.sub.lookup key var = none) := by
  have h := json_run ofNat d0 req ob l o' hrun
  have hne : valuations d0 [] (ob :: l) ≠ [] := by simp [valuations]
  obtain ⟨vs, last, hvs⟩ : ∃ vs last, valuations d0 [] (ob :: l) = vs ++ [last] :=
    ⟨_, _, (List.dropLast_append_getLast hne).symm⟩
  refine ⟨last, by simp [hvs], ?_, ?_⟩
  · intro v hv key var x hn hx
    rw [h, hvs, List.foldl_append]
    show ((putAll ofNat req _ last).flushAndSend).lookup key var = _
    rw [flushAndSend_lookup]
    exact putAll_lookup ofNat hreq (dinv_steps ofNat req dinv_init vs) last hv hn hx
  · intro key var hno
    rw [h]
    show ((valuations d0 [] (ob :: l)).foldl (jsonStep ofNat req) Dict.init).lookup key var = none
    rw [steps_other ofNat hreq dinv_init _ key var hno]
    simp [Dict.lookup, Dict.init, StdMap.find]

/-! ### C76: well formed lines -/

theorem wrenches_nil_iff (m : StdMap String (StdMap String N)) :
    (m.filter (fun o => !isAttitude o)).length > 0 ↔ m.filter (fun o => !isAttitude o) ≠ [] := by
  rw [gt_iff_lt, List.length_pos_iff]

/-- What `flush` writes, under the conditions in which it is correct. -/
theorem flush_toks {d : Dict N} (hd : DInv d) (hss : d.ss = []) (hg : d.grid = [])
    (h1 : d.map1 ≠ [] ∨ d.comma = false)
    (h2 : d.map2.filter isAttitude ≠ [] ∨ d.map2.filter (fun o => !isAttitude o) = []) :
    d.flush.ss = (expectedJson d.map1 d.map2).toks := by
  have hne : ∀ p ∈ d.map2, p.2 ≠ [] := fun p hp => (hd.s3 p hp).2
  -- the two parts of the second dictionary
  have hA : attitudes d.map2 = [.str "states", .colon] ++ (Json.obj (.ofList ((d.map2.filter isAttitude).map (fun p => (p.1, flatObj p.2))))).toks := by
    unfold attitudes
    dsimp only
    rw [objLoop_eq _ _ _ _ (by simp) hne, toks_obj]
    simp
  have hW : wrenches d.map2 = if d.map2.filter (fun o => !isAttitude o) = [] then [] else
      [.comma] ++ ([.str "wrenches", .colon] ++ (Json.obj (.ofList ((d.map2.filter (fun o => !isAttitude o)).map (fun p => (p.1, flatObj p.2))))).toks) := by
    unfold wrenches
    by_cases hw : d.map2.filter (fun o => !isAttitude o) = []
    · simp [hw]
    · have ha : d.map2.filter isAttitude ≠ [] := by
        rcases h2 with h | h
        · exact h
        · exact absurd h hw
      have ha' : (d.map2.filter isAttitude).length > 0 := List.length_pos_iff.mpr ha
      dsimp only
      rw [if_pos ((wrenches_nil_iff _).mpr hw), if_pos ha', if_neg hw, objLoop_eq _ _ _ _ (by simp) hne, toks_obj]
      simp
  have hM1 : flushMap d.map1 false = [Tok.comma].intercalate (d.map1.map (fun p => [.str p.1, .colon, .num p.2])) := by
    by_cases h : d.map1 = []
    · simp [h, flushMap, List.intercalate]
    · exact (flushMap_entries d.map1 h).1
  have hnum : (d.map1.map (fun p => (p.1, Json.num p.2))).map (fun p => [Tok.str p.1, .colon] ++ p.2.toks) =
      d.map1.map (fun p => [.str p.1, .colon, .num p.2]) := by
    rw [List.map_map]
    refine List.map_congr_left fun p _ => ?_
    simp [Json.toks]
  have hflush : d.flush.ss = [.lbrace] ++ flushMap d.map1 false ++
      (if d.map2 = [] then [] else (if d.map1 = [] then [] else [.comma]) ++ attitudes d.map2 ++ wrenches d.map2) ++ [.rbrace] := by
    unfold Dict.flush Dict.serializeGrid Dict.serialize2 Dict.serialize1
    by_cases m1 : d.map1 = []
    · have hc : d.comma = false := by
        rcases h1 with h | h
        · exact absurd m1 h
        · exact h
      by_cases m2 : d.map2 = []
      · simp [m1, m2, hss, hg, flushMap]
      · simp [m1, m2, hss, hg, flushMap, hc]
    · have m1' : d.map1.length ≠ 0 := by simpa using m1
      by_cases m2 : d.map2 = []
      · simp [m1, m2, hss, hg, flushMap]
      · simp [m1, m2, hss, hg, flushMap]
  rw [hflush, expectedJson, toks_obj, toks_ofList]
  rw [List.append_assoc [Tok.lbrace]]
  congr 2
  rw [List.append_assoc (d.map1.map _), List.map_append, hnum, hM1]
  by_cases m2 : d.map2 = []
  · simp [m2]
  · have hsplit : (List.map (fun p : String × Json N => [Tok.str p.1, Tok.colon] ++ p.2.toks)
        ((if d.map2 = [] then [] else
          [("states", Json.obj (Members.ofList (List.map (fun p => (p.1, flatObj p.2)) (List.filter isAttitude d.map2))))]) ++
          if List.filter (fun o => !isAttitude o) d.map2 = [] then []
          else [("wrenches", Json.obj (Members.ofList (List.map (fun p => (p.1, flatObj p.2)) (List.filter (fun o => !isAttitude o) d.map2))))])) ≠ [] := by
      simp [m2]
    have hpart : [Tok.comma].intercalate (List.map (fun p : String × Json N => [Tok.str p.1, Tok.colon] ++ p.2.toks)
        ((if d.map2 = [] then [] else
          [("states", Json.obj (Members.ofList (List.map (fun p => (p.1, flatObj p.2)) (List.filter isAttitude d.map2))))]) ++
          if List.filter (fun o => !isAttitude o) d.map2 = [] then []
          else [("wrenches", Json.obj (Members.ofList (List.map (fun p => (p.1, flatObj p.2)) (List.filter (fun o => !isAttitude o) d.map2))))])) =
        attitudes d.map2 ++ wrenches d.map2 := by
      rw [hA, hW]
      by_cases hw : d.map2.filter (fun o => !isAttitude o) = []
      · simp [m2, hw, List.intercalate]
      · simp [m2, hw, List.intercalate]
    by_cases m1 : d.map1 = []
    · simp only [m1, m2, if_false, if_true, List.map_nil, List.nil_append] at hpart ⊢
      rw [hpart]
      simp [List.intercalate]
    · rw [intercalate_append _ (by simpa using m1) hsplit, hpart]
      simp [m1, m2]

/-- Every object of the second dictionary comes from a requested variable. -/
def From (req : List String) (d : Dict N) : Prop :=
  ∀ p ∈ d.map2, ∃ v ∈ req, ∃ var, var ≠ "" ∧ NameOf v p.1 var

theorem from_put {req : List String} {d : Dict N} (h : From req d) (x : N) {v : String} (hv : v ∈ req) (hreq : GoodNames req) :
    From req (d.put x v) := by
  obtain ⟨hl, key, var, hn⟩ := hreq v hv
  unfold Dict.put
  rw [extractKeyVar_nameOf hn hl]
  dsimp only
  rw [if_pos (nameOf_key_ne hn)]
  split
  · exact h
  · rename_i hvar
    intro p hp
    rcases mem_set hp with rfl | hp
    · exact ⟨v, hv, var, hvar, hn⟩
    · exact h p hp

theorem from_putAll (ofNat : Nat → N) {req r : List String} (hr : ∀ v ∈ r, v ∈ req) {d : Dict N} (h : From req d) (hreq : GoodNames req)
    (val : String → Val N (Grid N)) : From req (putAll ofNat r d val) := by
  induction r generalizing d with
  | nil => exact h
  | cons v r ih =>
    refine ih (fun w hw => hr w (List.mem_cons_of_mem _ hw)) ?_
    show From req ((json ofNat).serializer (val v) v d)
    cases val v with
    | num x => exact from_put h x (hr v List.mem_cons_self) hreq
    | grid g => exact h

theorem putAll_scalar (ofNat : Nat → N) {r : List String} (val : String → Val N (Grid N)) (hs : ∀ v ∈ r, ∃ x, val v = .num x) (d : Dict N) :
    (putAll ofNat r d val).ss = d.ss ∧ (putAll ofNat r d val).grid = d.grid ∧ (putAll ofNat r d val).sent = d.sent := by
  induction r generalizing d with
  | nil => exact ⟨rfl, rfl, rfl⟩
  | cons v r ih =>
    obtain ⟨h1, h2, h3⟩ := ih (fun w hw => hs w (List.mem_cons_of_mem _ hw)) ((json ofNat).serializer (val v) v d)
    obtain ⟨x, hx⟩ := hs v List.mem_cons_self
    have e : (json ofNat).serializer (val v) v d = d.put x v := by rw [hx]; rfl
    have e2 : (d.put x v).ss = d.ss ∧ (d.put x v).grid = d.grid ∧ (d.put x v).sent = d.sent := by
      unfold Dict.put
      split
      · exact ⟨rfl, rfl, rfl⟩
      · split
        · split <;> exact ⟨rfl, rfl, rfl⟩
        · exact ⟨rfl, rfl, rfl⟩
    refine ⟨h1.trans ?_, h2.trans ?_, h3.trans ?_⟩ <;> rw [e]
    · exact e2.1
    · exact e2.2.1
    · exact e2.2.2

/-- At least one requested variable has a plain name (such as `t`), and either no variable
belongs to a wrench (key with a comma) or at least one to an object without comma (a state). -/
def SafeRequest (req : List String) : Prop :=
  (∃ v ∈ req, NameOf v v "") ∧
  ((∃ v ∈ req, ∃ key var, NameOf v key var ∧ var ≠ "" ∧ ',' ∉ key.toList) ∨
   (∀ v ∈ req, ∀ key var, NameOf v key var → var ≠ "" → ',' ∉ key.toList))

/-- One observation writes the expected line. -/
theorem step_line (ofNat : Nat → N) {req : List String} (hreq : GoodNames req) (hsafe : SafeRequest req)
    (val : String → Val N (Grid N)) (hs : ∀ v ∈ req, ∃ x, val v = .num x) {d : Dict N}
    (hd : DInv d) (hf : From req d) (hss : d.ss = []) (hg : d.grid = []) :
    (jsonStep ofNat req d val).sent = d.sent ++ [(expectedJson (jsonStep ofNat req d val).map1 (jsonStep ofNat req d val).map2).toks] ∧
    (jsonStep ofNat req d val).ss = [] ∧ (jsonStep ofNat req d val).grid = [] ∧
    DInv (jsonStep ofNat req d val) ∧ From req (jsonStep ofNat req d val) := by
  obtain ⟨e1, e2, e3⟩ := putAll_scalar ofNat val hs d
  have hd' := dinv_putAll ofNat req hd val
  have hf' := from_putAll ofNat (fun _ h => h) hf hreq val
  obtain ⟨f1, f2, f3, f4⟩ := flush_maps (putAll ofNat req d val)
  obtain ⟨⟨v0, hv0, hn0⟩, hatt⟩ := hsafe
  have m1 : (putAll ofNat req d val).map1 ≠ [] := by
    obtain ⟨x, hx⟩ := hs v0 hv0
    have := putAll_lookup ofNat hreq hd val hv0 hn0 hx
    intro h0
    simp [Dict.lookup, h0, StdMap.find] at this
  have m2 : (putAll ofNat req d val).map2.filter isAttitude ≠ [] ∨
      (putAll ofNat req d val).map2.filter (fun o => !isAttitude o) = [] := by
    rcases hatt with ⟨v, hv, key, var, hn, hvar, hk⟩ | hno
    · left
      obtain ⟨x, hx⟩ := hs v hv
      have := putAll_lookup ofNat hreq hd val hv hn hx
      unfold Dict.lookup at this
      rw [if_neg hvar] at this
      obtain ⟨m, hm, _⟩ := Option.bind_eq_some_iff.mp this
      have hmem := StdMap.find_mem hm
      intro h0
      have : (key, m) ∈ (putAll ofNat req d val).map2.filter isAttitude :=
        List.mem_filter.mpr ⟨hmem, by simp [isAttitude, hk]⟩
      rw [h0] at this
      simp at this
    · right
      rw [List.filter_eq_nil_iff]
      intro p hp
      obtain ⟨v, hv, var, hvar, hn⟩ := hf' p hp
      have := hno v hv p.1 var hn hvar
      simp [isAttitude, this]
  have line := flush_toks hd' (e1.trans hss) (e2.trans hg) (Or.inl m1) m2
  refine ⟨?_, rfl, ?_, dinv_flushAndSend hd', ?_⟩
  · show (putAll ofNat req d val).flush.sent ++ [(putAll ofNat req d val).flush.ss] = _
    rw [f4, e3, line]
    show _ = _ ++ [(expectedJson (putAll ofNat req d val).flush.map1 (putAll ofNat req d val).flush.map2).toks]
    rw [f1, f2]
  · show (putAll ofNat req d val).flush.grid = []
    rw [f3, e2, hg]
  · show ∀ p ∈ (putAll ofNat req d val).flush.map2, _
    rw [f2]
    exact hf'

/-- **C76 (partial).** When only scalars are requested, among them a plain one (such as `t`),
and no wrench without at least one state, the JSON / websocket observer writes one line per
observation; every line is a well formed JSON object, and the last one is the JSON object
whose members are the entries of the dictionaries (described by `dict_content_partial`).
Missing: requests without plain variable, or with wrenches but no state, or with the wave
elevation (see the refutations below). -/
theorem json_lines_partial (ofNat : Nat → N) (d0 : Val N (Grid N)) (req : List String) (hreq : GoodNames req)
    (hsafe : SafeRequest req)
    (ob : Val N (Grid N) × List (String × Val N (Grid N))) (l : List (Val N (Grid N) × List (String × Val N (Grid N))))
    (hs : ∀ val ∈ valuations d0 [] (ob :: l), ∀ v ∈ req, ∃ x, val v = .num x)
    (o' : Observer (Dict N) (Val N (Grid N)))
    (hrun : (Observer.init req Dict.init).observeAll (json ofNat) (ob :: l) = .ok o') :
    o'.sub.sent.length = (ob :: l).length ∧ (∀ line ∈ o'.sub.sent, WellFormed line) ∧
    o'.sub.sent.getLast? = some (expectedJson o'.sub.map1 o'.sub.map2).toks := by
  have h := json_run ofNat d0 req ob l o' hrun
  have key : ∀ (vals : List (String → Val N (Grid N))) (d : Dict N), (∀ val ∈ vals, ∀ v ∈ req, ∃ x, val v = .num x) →
      DInv d → From req d → d.ss = [] → d.grid = [] → (∀ line ∈ d.sent, WellFormed line) →
      (vals = [] → d.sent.getLast? = some (expectedJson d.map1 d.map2).toks) →
      (vals.foldl (jsonStep ofNat req) d).sent.length = d.sent.length + vals.length ∧
      (∀ line ∈ (vals.foldl (jsonStep ofNat req) d).sent, WellFormed line) ∧
      (vals.foldl (jsonStep ofNat req) d).sent.getLast? =
        some (expectedJson (vals.foldl (jsonStep ofNat req) d).map1 (vals.foldl (jsonStep ofNat req) d).map2).toks := by
    intro vals
    induction vals with
    | nil => intro d _ _ _ _ _ hwf hl; exact ⟨rfl, hwf, hl rfl⟩
    | cons val vals ih =>
      intro d hsv hd hf hss hg hwf _
      obtain ⟨s1, s2, s3, s4, s5⟩ := step_line ofNat hreq hsafe val (hsv val List.mem_cons_self) hd hf hss hg
      have hlast : (jsonStep ofNat req d val).sent.getLast? =
          some (expectedJson (jsonStep ofNat req d val).map1 (jsonStep ofNat req d val).map2).toks := by
        rw [s1]; simp
      obtain ⟨r1, r2, r3⟩ := ih (jsonStep ofNat req d val) (fun v hv => hsv v (List.mem_cons_of_mem _ hv)) s4 s5 s2 s3
        (by
          intro line hline
          rw [s1] at hline
          rcases List.mem_append.mp hline with h | h
          · exact hwf line h
          · exact ⟨_, List.mem_singleton.mp h⟩)
        (fun _ => hlast)
      refine ⟨?_, r2, r3⟩
      rw [List.foldl_cons, r1, s1]
      simp; omega
  have hne : valuations d0 [] (ob :: l) ≠ [] := by simp [valuations]
  obtain ⟨r1, r2, r3⟩ := key (valuations d0 [] (ob :: l)) Dict.init hs dinv_init (by intro p hp; simp [Dict.init] at hp)
    rfl rfl (by simp [Dict.init]) (fun h0 => absurd h0 hne)
  rw [show o'.sub = (valuations d0 [] (ob :: l)).foldl (jsonStep ofNat req) Dict.init from h]
  refine ⟨?_, r2, r3⟩
  rw [r1, valuations_length]
  simp [Dict.init]

/-! ### Examples and refutations -/

/-- A request with the time, a state and a force: the names are good and the request is safe. -/
example : GoodNames ["t", "x(b)", "Fx(m,b,NED)"] ∧ SafeRequest ["t", "x(b)", "Fx(m,b,NED)"] := by
  have n1 : NameOf "t" "t" "" := .plain _ (by decide) (by decide) (by decide)
  have n2 : NameOf "x(b)" "b" "x" := .paren "x" "b" (by decide) (by decide) (by decide)
  have n3 : NameOf "Fx(m,b,NED)" "m,b,NED" "Fx" := .paren "Fx" "m,b,NED" (by decide) (by decide) (by decide)
  refine ⟨?_, ⟨"t", by simp, n1⟩, Or.inl ⟨"x(b)", by simp, "b", "x", n2, by decide, by decide⟩⟩
  intro v hv
  simp only [List.mem_cons, List.not_mem_nil, or_false] at hv
  rcases hv with rfl | rfl | rfl
  · exact ⟨by decide, _, _, n1⟩
  · exact ⟨by decide, _, _, n2⟩
  · exact ⟨by decide, _, _, n3⟩

/-- The lines of that request. -/
example : ((Observer.init ["t", "x(b)", "Fx(m,b,NED)"] Dict.init).observeAll (json id)
    [(.num 1, [("x(b)", .num 2), ("Fx(m,b,NED)", .num 3)])]).map (fun o => o.sub.sent) =
    .ok [[.lbrace, .str "t", .colon, .num 1, .comma, .str "states", .colon, .lbrace, .str "b", .colon, .lbrace, .str "x",
      .colon, .num 2, .rbrace, .rbrace, .comma, .str "wrenches", .colon, .lbrace, .str "m,b,NED", .colon, .lbrace, .str "Fx",
      .colon, .num 3, .rbrace, .rbrace, .rbrace]] := by
  decide +kernel

/-- C35 is false for other names: `a(b)` and `a(b)c` are stored under the same key. -/
theorem dict_names_collide :
    extractKeyVar "a(b)" = .ok ("b", "a") ∧ extractKeyVar "a(b)c" = .ok ("b", "a") ∧
    extractKeyVar "(x)" = .ok ("x", "") ∧ extractKeyVar "x" = .ok ("x", "") ∧
    extractKeyVar "x()" = .ok ("", "x") := by
  decide +kernel

/-- C35, refutation for names like `x()` (a body whose name is empty): the value is dropped. -/
theorem dict_drops_empty_key (d : Dict N) (x : N) : d.put x "x()" = d := by
  unfold Dict.put
  rw [show extractKeyVar "x()" = .ok ("", "x") by decide +kernel]
  rfl

theorem members_toks_head (m : Members N) : m.toks = [] ∨ ∃ k ts, m.toks = .str k :: .colon :: ts := by
  cases m with
  | nil => left; rw [Members.toks]
  | cons k v m =>
    right
    cases m with
    | nil => exact ⟨k, _, by rw [Members.toks]; rfl⟩
    | cons k' v' m => exact ⟨k, _, by rw [Members.toks]; rfl⟩

/-- An opening brace followed by a comma is not JSON. -/
theorem not_wellFormed_brace_comma (l : List (Tok N)) : ¬ WellFormed (.lbrace :: .comma :: l) := by
  rintro ⟨j, hj⟩
  cases j with
  | num x => simp [Json.toks] at hj
  | obj m =>
    rw [toks_obj] at hj
    rcases members_toks_head m with h | ⟨k, ts, h⟩ <;> rw [h] at hj <;> simp at hj

/-- C76, first refutation: when no plain variable is requested, the second line (and the next
ones) starts with a brace followed by a comma, because the flag that asks for a comma is never
reset. -/
theorem json_second_line_refuted :
    ∃ (line1 line2 : List (Tok Nat)),
      ((Observer.init ["x(b)"] Dict.init).observeAll (json id)
        [(.num 0, [("x(b)", .num 5)]), (.num 1, [("x(b)", .num 6)])]).map (fun o => o.sub.sent) = .ok [line1, line2] ∧
      ¬ WellFormed line2 := by
  refine ⟨[.lbrace, .str "states", .colon, .lbrace, .str "b", .colon, .lbrace, .str "x", .colon, .num 5, .rbrace, .rbrace, .rbrace],
    [.lbrace, .comma, .str "states", .colon, .lbrace, .str "b", .colon, .lbrace, .str "x", .colon, .num 6, .rbrace, .rbrace, .rbrace],
    by decide +kernel, not_wellFormed_brace_comma _⟩

/-- C76, second refutation: wrenches without any state: the comma between `"states":{}` and
`"wrenches"` is missing. -/
theorem json_wrenches_refuted :
    ∃ line : List (Tok Nat),
      ((Observer.init ["t", "Fx(m,b,NED)"] Dict.init).observeAll (json id)
        [(.num 0, [("Fx(m,b,NED)", .num 5)])]).map (fun o => o.sub.sent) = .ok [line] ∧
      ¬ WellFormed line := by
  refine ⟨[.lbrace, .str "t", .colon, .num 0, .comma, .str "states", .colon, .lbrace, .rbrace, .str "wrenches", .colon, .lbrace,
    .str "m,b,NED", .colon, .lbrace, .str "Fx", .colon, .num 5, .rbrace, .rbrace, .rbrace], by decide +kernel, ?_⟩
  rintro ⟨j, hj⟩
  cases j with
  | num x => simp [Json.toks] at hj
  | obj m =>
    rw [toks_obj] at hj
    cases m with
    | nil => simp [Members.toks] at hj
    | cons k v m =>
      cases m with
      | nil =>
        rw [Members.toks] at hj
        cases v with
        | num x => simp [Json.toks] at hj
        | obj m' => rw [toks_obj] at hj; simp at hj
      | cons k' v' m =>
        rw [Members.toks] at hj
        cases v with
        | obj m' => rw [toks_obj] at hj; simp at hj
        | num x =>
          rw [Json.toks] at hj
          cases m with
          | nil =>
            rw [Members.toks] at hj
            cases v' with
            | num y => simp [Json.toks] at hj
            | obj m'' =>
              rw [toks_obj] at hj
              rcases members_toks_head m'' with h | ⟨k3, ts, h⟩ <;> rw [h] at hj <;> simp at hj
          | cons k3 v3 m =>
            rw [Members.toks] at hj
            cases v' with
            | num y => simp [Json.toks] at hj
            | obj m'' =>
              rw [toks_obj] at hj
              rcases members_toks_head m'' with h | ⟨k3, ts, h⟩ <;> rw [h] at hj <;> simp at hj

mutual
theorem json_no_squote (j : Json N) (s : List Char) : Tok.squoted s ∉ j.toks := by
  cases j with
  | num x => simp [Json.toks]
  | obj m => rw [toks_obj]; simp [members_no_squote m s]
theorem members_no_squote (m : Members N) (s : List Char) : Tok.squoted s ∉ m.toks := by
  match m with
  | .nil => simp [Members.toks]
  | .cons k v .nil => rw [Members.toks]; simp [json_no_squote v s]
  | .cons k v (.cons k' v' m) =>
    rw [Members.toks]
    simp [json_no_squote v s, members_no_squote (.cons k' v' m) s]
end

/-- C76, third refutation: a line with a (non-empty) wave elevation grid is never well formed:
the elevations are between single quotes. -/
theorem json_grid_refuted (ofNat : Nat → N) (d : Dict N) (g : Grid N) (hn : g.n > 0) :
    ¬ WellFormed (d.putGrid ofNat g).flush.ss := by
  rintro ⟨j, hj⟩
  have hmem : Tok.squoted g.z ∈ (d.putGrid ofNat g).grid := by
    unfold Dict.putGrid
    simp [hn]
  have hgrid : (d.putGrid ofNat g).grid ≠ [] := List.ne_nil_of_mem hmem
  refine json_no_squote j g.z ?_
  rw [← hj]
  unfold Dict.flush Dict.serializeGrid
  have h3 : ∀ e : Dict N, e.serialize1.serialize2.grid = e.grid := by
    intro e
    unfold Dict.serialize2 Dict.serialize1
    split_ifs <;> rfl
  dsimp only
  rw [if_neg (by rw [h3]; exact hgrid)]
  dsimp only
  rw [h3]
  simp [hmem]

end Xdyn.Obs

import Verif.Lemmas.Observer

/-
Outputs: C33 (columns), C34 (CSV).
-/

namespace Xdyn.Obs

variable {σ ν : Type}

/-! ### C33 -/

/-- **C33.** Whatever the observer, the requested variables and the observations, a run does
exactly what the specification says: a title line, then one line per observation, each with
one action per requested variable, in the requested order, separated; or an error. -/
theorem observeAll_spec (I : Impl σ ν) (req : List String) (s : σ) (obs : List (ν × List (String × ν))) :
    ((Observer.init req s).observeAll I obs).map Observer.sub =
      match expectedRun I req obs with
      | none => .error (.throw "InvalidInputException")
      | some as => .ok (perform as s) := observeAll_eq I req s obs

theorem expectedLines_isSome (I : Impl σ ν) (req : List String) (past : List (String × ν))
    (obs : List (ν × List (String × ν))) (h : ∀ v ∈ req, v ∈ past.map Prod.fst) :
    (expectedLines I req past obs).isSome := by
  induction obs generalizing past with
  | nil => rfl
  | cons ob l ih =>
    have h' : ∀ v ∈ req, v ∈ (past ++ writesOf ob).map Prod.fst := by
      intro v hv
      rw [List.map_append]
      exact List.mem_append_left _ (h v hv)
    unfold expectedLines
    obtain ⟨as, has⟩ := Option.isSome_iff_exists.mp
      ((lineOf_isSome (past ++ writesOf ob) req I.serializer I.flushValueDuringWrite).mpr h')
    obtain ⟨rest, hrest⟩ := Option.isSome_iff_exists.mp (ih _ h')
    rw [has, hrest]
    rfl

/-- **C33**, error: a run with at least one observation raises an error exactly when one of
the requested variables is neither `t` nor one of those written for the first observation. -/
theorem observeAll_error_iff (I : Impl σ ν) (req : List String) (s : σ) (ob : ν × List (String × ν))
    (l : List (ν × List (String × ν))) :
    (Observer.init req s).observeAll I (ob :: l) = .error (.throw "InvalidInputException") ↔
      ∃ v ∈ req, v ≠ "t" ∧ v ∉ ob.2.map Prod.fst := by
  have key : (Observer.init req s).observeAll I (ob :: l) = .error (.throw "InvalidInputException") ↔
      expectedRun I req (ob :: l) = none := by
    have h := observeAll_spec I req s (ob :: l)
    cases hr : expectedRun I req (ob :: l) with
    | none =>
      rw [hr] at h
      cases ho : (Observer.init req s).observeAll I (ob :: l) with
      | error e => rw [ho] at h; simp only [Except.map] at h; simpa using h
      | ok o => rw [ho] at h; simp [Except.map] at h
    | some as =>
      rw [hr] at h
      cases ho : (Observer.init req s).observeAll I (ob :: l) with
      | error e => rw [ho] at h; simp [Except.map] at h
      | ok o => simp
  rw [key]
  have hmem : (∀ v ∈ req, v ∈ (writesOf ob).map Prod.fst) ↔ ¬ ∃ v ∈ req, v ≠ "t" ∧ v ∉ ob.2.map Prod.fst := by
    unfold writesOf
    push Not
    refine forall₂_congr fun v _ => ?_
    rw [List.map_cons, List.mem_cons]
    tauto
  constructor
  · intro h
    by_contra hne
    have hall := hmem.mpr hne
    rw [expectedRun] at h
    obtain ⟨ts, hts⟩ := Option.isSome_iff_exists.mp
      ((lineOf_isSome (writesOf ob) req I.initializer I.flushValueDuringInitialization).mpr hall)
    have h2 : (expectedLines I req [] (ob :: l)).isSome := by
      unfold expectedLines
      obtain ⟨as, has⟩ := Option.isSome_iff_exists.mp
        ((lineOf_isSome ([] ++ writesOf ob) req I.serializer I.flushValueDuringWrite).mpr (by simpa using hall))
      obtain ⟨rest, hrest⟩ := Option.isSome_iff_exists.mp
        (expectedLines_isSome I req ([] ++ writesOf ob) l (by simpa using hall))
      rw [has, hrest]
      rfl
    obtain ⟨ls, hls⟩ := Option.isSome_iff_exists.mp h2
    rw [hts, hls] at h
    simp at h
  · intro hne
    have hnall : ¬ ∀ v ∈ req, v ∈ (writesOf ob).map Prod.fst := fun h => (hmem.mp h) hne
    rw [expectedRun]
    have : lineOf (writesOf ob) req I.initializer I.flushValueDuringInitialization = none := by
      rw [← Option.not_isSome_iff_eq_none, lineOf_isSome]
      exact hnall
    rw [this]
    rfl

/-! ### Observers that append text -/

/-- Actions that append text append the text. -/
theorem perform_text {α : Type} (ts : List (List α)) (s : List α) :
    perform (ts.map (fun t l => l ++ t)) s = s ++ ts.flatten := by
  induction ts generalizing s with
  | nil => simp [perform]
  | cons t ts ih => rw [List.map_cons, perform_cons, ih]; simp

theorem map_intersperse {α β : Type} (f : α → β) (a : α) (l : List α) :
    (l.intersperse a).map f = (l.map f).intersperse (f a) := by
  induction l with
  | nil => rfl
  | cons x l ih =>
    cases l with
    | nil => rfl
    | cons y l =>
      simp only [List.map_cons, List.intersperse_cons₂] at ih ⊢
      rw [ih]

theorem mapM_some {α β : Type} (f : α → Option β) (g : α → β) (l : List α) (h : ∀ a ∈ l, f a = some (g a)) :
    l.mapM f = some (l.map g) := by
  induction l with
  | nil => rfl
  | cons a l ih =>
    rw [List.mapM_cons, h a List.mem_cons_self, ih (fun b hb => h b (List.mem_cons_of_mem _ hb))]
    rfl

/-- An observer each function of which appends a text. -/
structure TextImpl (α ν : Type) where
  value : ν → String → List α
  title : ν → String → List α
  titleEnd : List α
  lineStart : List α
  lineEnd : List α
  valueSep : List α
  titleSep : List α

def TextImpl.impl {α : Type} (T : TextImpl α ν) : Impl (List α) ν where
  serializer x v l := l ++ T.value x v
  initializer x v l := l ++ T.title x v
  flushAfterInitialization l := l ++ T.titleEnd
  beforeWrite l := l ++ T.lineStart
  flushAfterWrite l := l ++ T.lineEnd
  flushValueDuringWrite l := l ++ T.valueSep
  flushValueDuringInitialization l := l ++ T.titleSep

/-- Value of each variable at each observation (the last one written so far, or `d`). -/
def valuations (d : ν) : List (String × ν) → List (ν × List (String × ν)) → List (String → ν)
  | _, [] => []
  | past, o :: l => (fun v => (latest (past ++ writesOf o) v).getD d) :: valuations d (past ++ writesOf o) l

theorem valuations_length (d : ν) (past : List (String × ν)) (obs : List (ν × List (String × ν))) :
    (valuations d past obs).length = obs.length := by
  induction obs generalizing past with
  | nil => rfl
  | cons o l ih => simp [valuations, ih]

theorem lineOf_text {α : Type} {writes : List (String × ν)} {req : List String} (d : ν)
    (h : ∀ v ∈ req, v ∈ writes.map Prod.fst) (f : ν → String → List α) (sep : List α) :
    lineOf writes req (fun x v l => l ++ f x v) (fun l => l ++ sep) =
      some (((req.map (fun v => f ((latest writes v).getD d) v)).intersperse sep).map (fun t l => l ++ t)) := by
  unfold lineOf
  rw [mapM_some _ (fun v => (fun (l : List α) => l ++ f ((latest writes v).getD d) v))]
  · rw [map_intersperse, List.map_map]
    rfl
  · intro v hv
    obtain ⟨x, hx⟩ := Option.isSome_iff_exists.mp ((latest_isSome _ _).mpr (h v hv))
    rw [hx]
    rfl

theorem expectedLines_text {α : Type} (T : TextImpl α ν) (d : ν) (req : List String) (past : List (String × ν))
    (obs : List (ν × List (String × ν))) (h : ∀ o l', obs = o :: l' → ∀ v ∈ req, v ∈ (past ++ writesOf o).map Prod.fst) :
    expectedLines T.impl req past obs =
      some (((valuations d past obs).flatMap (fun val =>
        [T.lineStart] ++ (req.map (fun v => T.value (val v) v)).intersperse T.valueSep ++ [T.lineEnd])).map (fun t l => l ++ t)) := by
  induction obs generalizing past with
  | nil => rfl
  | cons o l ih =>
    have h0 := h o l rfl
    unfold expectedLines
    rw [show T.impl.serializer = fun x v l => l ++ T.value x v from rfl,
      show T.impl.flushValueDuringWrite = fun l => l ++ T.valueSep from rfl, lineOf_text d h0, ih]
    · simp only [Option.bind_eq_bind, Option.bind_some, pure, valuations, List.flatMap_cons, List.map_append,
        List.map_cons, List.map_nil]
      rfl
    · intro o' l' _ v hv
      rw [List.map_append]
      exact List.mem_append_left _ (h0 v hv)

/-- Text written by a run, when it does not fail. -/
theorem text_run {α : Type} (T : TextImpl α ν) (d : ν) (req : List String) (s : List α) (ob : ν × List (String × ν))
    (l : List (ν × List (String × ν))) (h : ∀ v ∈ req, v ∈ (writesOf ob).map Prod.fst) :
    ((Observer.init req s).observeAll T.impl (ob :: l)).map Observer.sub =
      .ok (s ++ T.titleSep.intercalate (req.map (fun v => T.title ((latest (writesOf ob) v).getD d) v)) ++ T.titleEnd ++
        (valuations d [] (ob :: l)).flatMap (fun val =>
          T.lineStart ++ T.valueSep.intercalate (req.map (fun v => T.value (val v) v)) ++ T.lineEnd)) := by
  rw [observeAll_spec, expectedRun, expectedLines_text T d req [] (ob :: l) (by intro o l' e; cases e; simpa using h),
    show T.impl.initializer = fun x v l => l ++ T.title x v from rfl,
    show T.impl.flushValueDuringInitialization = fun l => l ++ T.titleSep from rfl, lineOf_text d h]
  simp only [Option.bind_eq_bind, Option.bind_some, pure]
  rw [show [T.impl.flushAfterInitialization] = [T.titleEnd].map (fun t l => l ++ t) from rfl, ← List.map_append,
    ← List.map_append, perform_text]
  congr 1
  simp only [List.flatten_append, List.append_assoc, List.intercalate]
  congr 2
  simp only [List.flatten_cons, List.flatten_nil, List.append_nil]
  congr 1
  induction valuations d [] (ob :: l) with
  | nil => rfl
  | cons v vs ih => simp only [List.flatMap_cons, List.flatten_append, ih]; simp

/-- What an observer is asked to do, in order. -/
inductive Event (ν : Type) where
  | title (v : String) | titleSep | titleEnd
  | lineStart | value (v : String) (x : ν) | valueSep | lineEnd
deriving DecidableEq

/-- The observer that keeps the list of what it is asked to do. -/
def recorder : Impl (List (Event ν)) ν where
  serializer x v l := l ++ [.value v x]
  initializer _ v l := l ++ [.title v]
  flushAfterInitialization l := l ++ [.titleEnd]
  beforeWrite l := l ++ [.lineStart]
  flushAfterWrite l := l ++ [.lineEnd]
  flushValueDuringWrite l := l ++ [.valueSep]
  flushValueDuringInitialization l := l ++ [.titleSep]

/-- Value of `v` according to the last write of the observation `ob` itself (or `d`). -/
def current (d : ν) (ob : ν × List (String × ν)) (v : String) : ν := (latest (writesOf ob) v).getD d

theorem intercalate_single {α β : Type} (a : α) (f : β → α) (l : List β) :
    List.intercalate [a] (l.map (fun x => [f x])) = (l.map f).intersperse a := by
  unfold List.intercalate
  have : l.map (fun x => [f x]) = (l.map f).map (fun x => [x]) := by simp
  rw [this]
  rw [show ([a] : List α) = (fun x : α => [x]) a from rfl, ← map_intersperse (fun x : α => [x])]
  induction (l.map f).intersperse a with
  | nil => rfl
  | cons x l ih => simp [ih]

theorem flatMap_valuations {β : Type} (d : ν) (req : List String) (past : List (String × ν)) (obs : List (ν × List (String × ν)))
    (h : ∀ o ∈ obs, ∀ v ∈ req, v ∈ (writesOf o).map Prod.fst) (f : List ν → List β) :
    (valuations d past obs).flatMap (fun val => f (req.map val)) =
      obs.flatMap (fun o => f (req.map (current d o))) := by
  induction obs generalizing past with
  | nil => rfl
  | cons o l ih =>
    simp only [valuations, List.flatMap_cons]
    rw [ih _ (fun o' h' => h o' (List.mem_cons_of_mem _ h'))]
    congr 2
    refine List.map_congr_left fun v hv => ?_
    obtain ⟨x, hx⟩ := Option.isSome_iff_exists.mp ((latest_isSome _ _).mpr (h o List.mem_cons_self v hv))
    rw [latest_append, hx]
    simp [current, hx]

/-- **C33**, columns: when every requested variable is written for each observation, the
observer is asked for the titles of the requested variables, in order, once, then, for each
observation, for the values of the requested variables, in the same order, each with the
value written for that very observation. -/
theorem columns (d : ν) (req : List String) (ob : ν × List (String × ν)) (l : List (ν × List (String × ν)))
    (h : ∀ o ∈ ob :: l, ∀ v ∈ req, v ∈ (writesOf o).map Prod.fst) :
    ((Observer.init req []).observeAll recorder (ob :: l)).map Observer.sub =
      .ok ((req.map Event.title).intersperse .titleSep ++ [.titleEnd] ++
        (ob :: l).flatMap (fun o =>
          [.lineStart] ++ (req.map (fun v => Event.value v (current d o v))).intersperse .valueSep ++ [.lineEnd])) := by
  have hT : (recorder : Impl (List (Event ν)) ν) = TextImpl.impl
      { value := fun x v => [.value v x], title := fun _ v => [.title v], titleEnd := [.titleEnd],
        lineStart := [.lineStart], lineEnd := [.lineEnd], valueSep := [.valueSep], titleSep := [.titleSep] } := rfl
  rw [hT, text_run _ d req [] ob l (h ob List.mem_cons_self)]
  congr 1
  simp only [List.nil_append]
  rw [intercalate_single]
  congr 1
  have key := flatMap_valuations d req [] (ob :: l) h (fun xs => [Event.lineStart] ++
    (List.zipWith (fun v x => Event.value v x) req xs).intersperse .valueSep ++ [.lineEnd])
  simp only [List.zipWith_map_right, List.zipWith_self] at key
  rw [← key]
  refine List.flatMap_congr fun val _ => ?_
  rw [intercalate_single]

/-- C33: the hypotheses hold of two observations of two variables, one of which is a position. -/
example : ((Observer.init ["x(b)", "t"] []).observeAll recorder
      [((0 : Nat), [("x(b)", 5), ("y(b)", 6)]), (1, [("y(b)", 8), ("x(b)", 7)])]).map Observer.sub =
    .ok [.title "x(b)", .titleSep, .title "t", .titleEnd,
      .lineStart, .value "x(b)" 5, .valueSep, .value "t" 0, .lineEnd,
      .lineStart, .value "x(b)" 7, .valueSep, .value "t" 1, .lineEnd] := by
  rw [columns 0 _ _ _ (by decide)]
  rfl

example : (Observer.init ["x(b)", "z"] []).observeAll recorder [((0 : Nat), [("x(b)", 5)])] =
    .error (.throw "InvalidInputException") :=
  (observeAll_error_iff recorder _ _ _ _).mpr ⟨"z", by decide, by decide, by decide⟩

/-! ### C34 -/

/-- Title of a variable in a CSV file: the commas are replaced by blanks. -/
def csvTitle {N G : Type} (x : Val N G) (name : String) : List Char :=
  match x with
  | .num _ => name.toList.map (fun c => if c = ',' then ' ' else c)
  | .grid _ => []

/-- Field of a variable in a CSV file. -/
def csvField {N G : Type} (fmt : N → List Char) (x : Val N G) : List Char :=
  match x with
  | .num y => fmt y
  | .grid _ => []

theorem csvTitle_no_comma {N G : Type} (x : Val N G) (name : String) : ',' ∉ csvTitle x name := by
  cases x with
  | grid _ => simp [csvTitle]
  | num _ =>
    simp only [csvTitle, List.mem_map, not_exists, not_and]
    intro c _ h
    split at h
    · exact absurd h (by decide)
    · contradiction

theorem csvTitle_no_newline {N G : Type} (x : Val N G) {name : String} (h : '\n' ∉ name.toList) : '\n' ∉ csvTitle x name := by
  cases x with
  | grid _ => simp [csvTitle]
  | num _ =>
    simp only [csvTitle, List.mem_map, not_exists, not_and]
    intro c hc e
    split at e
    · exact absurd e (by decide)
    · subst e; exact h hc

theorem not_mem_intercalate {α : Type} {a b : α} (hab : a ≠ b) {ls : List (List α)} (h : ∀ l ∈ ls, a ∉ l) :
    a ∉ [b].intercalate ls := by
  induction ls with
  | nil => simp [List.intercalate]
  | cons x xs ih =>
    cases xs with
    | nil => simpa [List.intercalate] using h x List.mem_cons_self
    | cons y ys =>
      have := ih (fun l hl => h l (List.mem_cons_of_mem _ hl))
      simp only [List.intercalate, List.intersperse_cons₂, List.flatten_cons, List.mem_append, List.mem_singleton] at this ⊢
      rintro (h1 | h1 | h1)
      · exact h x List.mem_cons_self h1
      · exact hab h1
      · exact this h1

/-- **C34.** Provided the text of a number contains neither comma nor line break and the
requested names no line break, a CSV output of a (non-empty) run that asks for at least one
variable consists of `1 + number of observations` lines; the comma-separated fields of the
first one are the titles of the requested variables and those of each of the next ones the
values of the requested variables: all lines have as many fields as there are requested
variables. -/
theorem csv_lines {N G : Type} (fmt : N → List Char) (hfmt : ∀ x, ',' ∉ fmt x ∧ '\n' ∉ fmt x)
    (d : Val N G) (req : List String) (hreq : req ≠ []) (hnames : ∀ v ∈ req, '\n' ∉ v.toList)
    (ob : Val N G × List (String × Val N G)) (l : List (Val N G × List (String × Val N G)))
    (o' : Observer (List Char) (Val N G))
    (hrun : (Observer.init req []).observeAll (csv fmt) (ob :: l) = .ok o') :
    ∃ (title : List Char) (rows : List (List Char)),
      o'.sub = (title :: rows).flatMap (fun line => line ++ ['\n']) ∧
      rows.length = (ob :: l).length ∧
      (∀ line ∈ title :: rows, '\n' ∉ line ∧ (line.splitOn ',').length = req.length) ∧
      title.splitOn ',' = req.map (fun v => csvTitle ((latest (writesOf ob) v).getD d) v) ∧
      rows.map (·.splitOn ',') = (valuations d [] (ob :: l)).map (fun val => req.map (fun v => csvField fmt (val v))) := by
  have hall : ∀ v ∈ req, v ∈ (writesOf ob).map Prod.fst := by
    intro v hv
    by_contra hne
    have hne' : v ≠ "t" ∧ v ∉ ob.2.map Prod.fst := by
      unfold writesOf at hne
      rw [List.map_cons, List.mem_cons] at hne
      exact not_or.mp hne
    rw [(observeAll_error_iff (csv fmt) req [] ob l).mpr ⟨v, hv, hne'⟩] at hrun
    cases hrun
  have hT : (csv fmt : Impl (List Char) (Val N G)) = TextImpl.impl
      { value := fun x _ => csvField fmt x, title := csvTitle, titleEnd := ['\n'],
        lineStart := [], lineEnd := ['\n'], valueSep := [','], titleSep := [','] } := by
    unfold csv TextImpl.impl
    congr 1
    · funext x v s; cases x <;> simp [csvField]
    · funext x v s; cases x <;> simp [csvTitle]
    · funext s; simp
  have h := text_run (α := Char) (ν := Val N G)
      { value := fun x _ => csvField fmt x, title := csvTitle, titleEnd := ['\n'],
        lineStart := [], lineEnd := ['\n'], valueSep := [','], titleSep := [','] } d req [] ob l hall
  rw [← hT, hrun] at h
  simp only [Except.map, Except.ok.injEq] at h
  have hfield : ∀ x : Val N G, ',' ∉ csvField fmt x ∧ '\n' ∉ csvField fmt x := by
    intro x
    cases x with
    | num y => exact hfmt y
    | grid g => simp [csvField]
  have st : ([','].intercalate (req.map (fun v => csvTitle ((latest (writesOf ob) v).getD d) v))).splitOn ',' =
      req.map (fun v => csvTitle ((latest (writesOf ob) v).getD d) v) := by
    refine List.splitOn_intercalate _ ?_ (by simpa using hreq)
    intro f hf
    obtain ⟨v, _, rfl⟩ := List.mem_map.mp hf
    exact csvTitle_no_comma _ _
  have sr : ∀ val : String → Val N G, ([','].intercalate (req.map (fun v => csvField fmt (val v)))).splitOn ',' =
      req.map (fun v => csvField fmt (val v)) := by
    intro val
    refine List.splitOn_intercalate _ ?_ (by simpa using hreq)
    intro f hf
    obtain ⟨v, _, rfl⟩ := List.mem_map.mp hf
    exact (hfield _).1
  refine ⟨[','].intercalate (req.map (fun v => csvTitle ((latest (writesOf ob) v).getD d) v)),
    (valuations d [] (ob :: l)).map (fun val => [','].intercalate (req.map (fun v => csvField fmt (val v)))), ?_, ?_, ?_, st, ?_⟩
  · rw [h]
    simp [List.flatMap_map]
  · rw [List.length_map, valuations_length]
  · intro line hline
    rcases List.mem_cons.mp hline with rfl | hline
    · refine ⟨not_mem_intercalate (by decide) ?_, by rw [st]; simp⟩
      intro f hf
      obtain ⟨v, hv, rfl⟩ := List.mem_map.mp hf
      exact csvTitle_no_newline _ (hnames v hv)
    · obtain ⟨val, _, rfl⟩ := List.mem_map.mp hline
      refine ⟨not_mem_intercalate (by decide) ?_, by rw [sr]; simp⟩
      intro f hf
      obtain ⟨v, hv, rfl⟩ := List.mem_map.mp hf
      exact (hfield _).2
  · rw [List.map_map]
    refine List.map_congr_left fun val _ => ?_
    exact sr val

/-- A format without commas nor line breaks, for the example: the number in unary. -/
def unary (n : Nat) : List Char := List.replicate n '1'

/-- C34: a run that meets the hypotheses, with a name that contains commas. -/
example : ((Observer.init ["t", "Fx(m,b,NED)"] []).observeAll (csv (G := Unit) unary)
    [(.num 1, [("Fx(m,b,NED)", .num 3)]), (.num 2, [("Fx(m,b,NED)", .num 0)])]).map Observer.sub =
    .ok "t,Fx(m b NED)\n1,111\n11,\n".toList ∧ (∀ x, ',' ∉ unary x ∧ '\n' ∉ unary x) := by
  refine ⟨by decide +kernel, fun x => ?_⟩
  simp [unary, List.mem_replicate]

end Xdyn.Obs

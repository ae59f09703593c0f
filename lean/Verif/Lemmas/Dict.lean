import Verif.Lemmas.Observer

namespace Xdyn.Obs

/-! ### extractKeyVarFromString -/

theorem findFirst_append {a b : List Char} {c : Char} (h : c ∉ a) : findFirst (a ++ c :: b) c = a.length := by
  unfold findFirst
  have : (a ++ c :: b).findIdx? (· = c) = some a.length := by
    rw [List.findIdx?_append]
    have h1 : a.findIdx? (· = c) = none := by
      rw [List.findIdx?_eq_none_iff]
      intro x hx
      simp only [decide_eq_false_iff_not]
      rintro rfl
      exact h hx
    simp [h1, List.findIdx?_cons]
  rw [this]

theorem findLast_concat (a : List Char) (c : Char) : findLast (a ++ [c]) c = a.length := by
  unfold findLast
  have : (a ++ [c]).reverse.findIdx? (· = c) = some 0 := by
    simp [List.findIdx?_cons]
  rw [this]
  simp

theorem findFirst_none {a : List Char} {c : Char} (h : c ∉ a) : findFirst a c = npos := by
  unfold findFirst
  have h1 : a.findIdx? (· = c) = none := by
    rw [List.findIdx?_eq_none_iff]
    intro x hx
    simp only [decide_eq_false_iff_not]
    rintro rfl
    exact h hx
  rw [h1]

theorem findLast_none {a : List Char} {c : Char} (h : c ∉ a) : findLast a c = npos := by
  unfold findLast
  have h1 : a.reverse.findIdx? (· = c) = none := by
    rw [List.findIdx?_eq_none_iff]
    intro x hx
    simp only [decide_eq_false_iff_not]
    rintro rfl
    exact h (List.mem_reverse.mp hx)
  rw [h1]

theorem extractKeyVar_nameOf {name key var : String} (h : NameOf name key var) (hlen : name.toList.length < npos) :
    extractKeyVar name = .ok (key, var) := by
  cases h with
  | plain _ h0 h1 h2 =>
    unfold extractKeyVar
    simp only [findFirst_none h1, findLast_none h2, and_self, if_true, bind, Except.bind, pure, Except.pure]
  | paren _ _ h0 h1 h2 =>
    have e : (var ++ "(" ++ key ++ ")").toList = var.toList ++ '(' :: (key.toList ++ [')']) := by
      simp [String.toList_append]
    have e2 : (var ++ "(" ++ key ++ ")").toList = (var.toList ++ '(' :: key.toList) ++ [')'] := by
      simp [String.toList_append]
    have f1 : findFirst (var ++ "(" ++ key ++ ")").toList '(' = var.toList.length := by
      rw [e, findFirst_append h1]
    have f2 : findLast (var ++ "(" ++ key ++ ")").toList ')' = var.toList.length + key.toList.length + 1 := by
      rw [e2, findLast_concat]; simp; omega
    have hl : var.toList.length + key.toList.length + 2 < npos := by
      rw [e] at hlen; simp only [List.length_append, List.length_cons, List.length_nil] at hlen; omega
    unfold extractKeyVar
    simp only [f1, f2, bind, Except.bind, pure, Except.pure]
    rw [if_neg (by intro hc; omega)]
    have hn : npos = 2 ^ 64 - 1 := rfl
    have a1 : add64 var.toList.length 1 = var.toList.length + 1 := by
      unfold add64; rw [Nat.mod_eq_of_lt]; omega
    have a2 : sub64 (sub64 (var.toList.length + key.toList.length + 1) var.toList.length) 1 = key.toList.length := by
      unfold sub64
      rw [Nat.mod_eq_of_lt (show var.toList.length < 2 ^ 64 by omega)]
      have : (var.toList.length + key.toList.length + 1 + 2 ^ 64 - var.toList.length) % 2 ^ 64 = key.toList.length + 1 := by
        rw [show var.toList.length + key.toList.length + 1 + 2 ^ 64 - var.toList.length = key.toList.length + 1 + 2 ^ 64 by omega,
          Nat.add_mod_right, Nat.mod_eq_of_lt]
        omega
      rw [this]
      rw [show key.toList.length + 1 + 2 ^ 64 - 1 % 2 ^ 64 = key.toList.length + 2 ^ 64 by
        omega, Nat.add_mod_right, Nat.mod_eq_of_lt]
      omega
    rw [a1, a2]
    have s1 : substr (var ++ "(" ++ key ++ ")").toList (var.toList.length + 1) key.toList.length = .ok key.toList := by
      unfold substr
      rw [if_pos (by rw [e]; simp)]
      rw [e, show var.toList ++ '(' :: (key.toList ++ [')']) = (var.toList ++ ['(']) ++ (key.toList ++ [')']) by simp,
        List.drop_left' (by simp), List.take_left' rfl]
    have s2 : substr (var ++ "(" ++ key ++ ")").toList 0 var.toList.length = .ok var.toList := by
      unfold substr
      rw [if_pos (Nat.zero_le _), List.drop_zero, e, List.take_left' rfl]
    rw [s1, s2]
    simp

/-- `extractKeyVarFromString` raises no exception. -/
theorem extractKeyVar_total (name : String) (hlen : name.toList.length < npos) : ∃ r, extractKeyVar name = .ok r := by
  have hn : npos = 2 ^ 64 - 1 := rfl
  unfold extractKeyVar
  simp only [bind, Except.bind, pure, Except.pure]
  split
  · exact ⟨_, rfl⟩
  · have hpos : add64 (findFirst name.toList '(') 1 ≤ name.toList.length := by
      unfold findFirst
      split
      · rename_i i hi
        have := (List.findIdx?_eq_some_iff_findIdx_eq.mp hi).1
        unfold add64; rw [Nat.mod_eq_of_lt] <;> omega
      · unfold add64 npos; simp
    unfold substr
    rw [if_pos hpos, if_pos (Nat.zero_le _)]
    exact ⟨_, rfl⟩

/-! ### Dictionaries -/

/-- Invariant of the dictionaries: sorted maps, no empty object. -/
structure DInv {N : Type} (d : Dict N) : Prop where
  s1 : d.map1.Sorted
  s2 : d.map2.Sorted
  s3 : ∀ p ∈ d.map2, p.2.Sorted ∧ p.2 ≠ []

theorem dinv_init {N : Type} : DInv (Dict.init : Dict N) :=
  ⟨List.Pairwise.nil, List.Pairwise.nil, by simp [Dict.init]⟩

theorem set_ne_nil {κ ν : Type} [LinearOrder κ] (m : StdMap κ ν) (k : κ) (v : ν) : m.set k v ≠ [] := by
  cases m with
  | nil => simp [StdMap.set]
  | cons p m =>
    obtain ⟨a, b⟩ := p
    unfold StdMap.set
    split
    · simp
    · split <;> simp

theorem mem_set {κ ν : Type} [LinearOrder κ] {m : StdMap κ ν} {k : κ} {v : ν} {p : κ × ν} (h : p ∈ m.set k v) :
    p = (k, v) ∨ p ∈ m := by
  induction m with
  | nil => simpa [StdMap.set] using h
  | cons q m ih =>
    obtain ⟨a, b⟩ := q
    unfold StdMap.set at h
    split at h
    · simpa using h
    · split at h
      · rcases List.mem_cons.mp h with h | h
        · exact Or.inl h
        · exact Or.inr (List.mem_cons_of_mem _ h)
      · rcases List.mem_cons.mp h with h | h
        · subst h; exact Or.inr List.mem_cons_self
        · rcases ih h with h | h
          · exact Or.inl h
          · exact Or.inr (List.mem_cons_of_mem _ h)

theorem inner_sorted {N : Type} {d : Dict N} (h : DInv d) (k : String) : ((d.map2.find k).getD []).Sorted := by
  cases hf : d.map2.find k with
  | none => exact List.Pairwise.nil
  | some m => exact (h.s3 (k, m) (StdMap.find_mem hf)).1

theorem dinv_put {N : Type} {d : Dict N} (h : DInv d) (x : N) (name : String) : DInv (d.put x name) := by
  unfold Dict.put
  split
  · exact h
  · split
    · split
      · exact ⟨StdMap.sorted_set _ _ _ h.s1, h.s2, h.s3⟩
      · refine ⟨h.s1, StdMap.sorted_set _ _ _ h.s2, ?_⟩
        intro p hp
        rcases mem_set hp with rfl | hp
        · exact ⟨StdMap.sorted_set _ _ _ (inner_sorted h _), set_ne_nil _ _ _⟩
        · exact h.s3 p hp
    · exact h

theorem nameOf_key_ne {name key var : String} (h : NameOf name key var) : key ≠ "" := by
  cases h with
  | plain _ h0 _ _ => exact h0
  | paren _ _ _ _ h2 => exact h2

theorem lookup_put {N : Type} {d : Dict N} (hd : DInv d) (x : N) {name key var : String} (h : NameOf name key var)
    (hlen : name.toList.length < npos) (key' var' : String) :
    (d.put x name).lookup key' var' = if key' = key ∧ var' = var then some x else d.lookup key' var' := by
  unfold Dict.put
  rw [extractKeyVar_nameOf h hlen]
  simp only [ne_eq, nameOf_key_ne h, not_false_eq_true, if_true]
  by_cases hv : var = ""
  · subst hv
    rw [if_pos rfl]
    unfold Dict.lookup
    by_cases hv' : var' = ""
    · simp [hv', StdMap.find_set _ _ _ _ hd.s1]
    · simp [hv']
  · rw [if_neg hv]
    unfold Dict.lookup
    by_cases hv' : var' = ""
    · subst hv'; simp [Ne.symm hv]
    · simp only [hv', if_false]
      rw [StdMap.find_set _ _ _ _ hd.s2]
      by_cases hk : key' = key
      · subst hk
        simp only [if_true, Option.bind_some, true_and]
        rw [StdMap.find_set _ _ _ _ (inner_sorted hd _)]
        by_cases hvv : var' = var
        · simp [hvv]
        · simp only [hvv, if_false]
          cases d.map2.find key' <;> rfl
      · simp [hk]

/-- Distinct names never share a key. -/
theorem nameOf_injective {n1 n2 key var : String} (h1 : NameOf n1 key var) (h2 : NameOf n2 key var) : n1 = n2 := by
  cases h1 with
  | plain _ a b c =>
    cases h2 with
    | plain _ _ _ _ => rfl
    | paren _ _ h0 _ _ => exact absurd rfl h0
  | paren _ _ h0 _ _ =>
    cases h2 with
    | plain _ _ _ _ => exact absurd rfl h0
    | paren _ _ _ _ _ => rfl

theorem perform_intersperse_id {σ : Type} (fs : List (σ → σ)) (s : σ) :
    perform (fs.intersperse (fun x => x)) s = perform fs s := by
  induction fs generalizing s with
  | nil => rfl
  | cons f fs ih =>
    cases fs with
    | nil => rfl
    | cons g gs =>
      rw [List.intersperse_cons₂, perform_cons, perform_cons, ih]
      rfl

theorem perform_map {σ α : Type} (f : α → σ → σ) (l : List α) (s : σ) :
    perform (l.map f) s = l.foldl (fun s a => f a s) s := by
  unfold perform
  rw [List.foldl_map]

/-! ### Tokens -/

theorem toks_obj {N : Type} (m : Members N) : (Json.obj m).toks = [.lbrace] ++ m.toks ++ [.rbrace] := by
  rw [Json.toks]

theorem toks_ofList {N : Type} (l : List (String × Json N)) :
    (Members.ofList l).toks = [Tok.comma].intercalate (l.map (fun p => [.str p.1, .colon] ++ p.2.toks)) := by
  induction l with
  | nil => simp [Members.ofList, Members.toks, List.intercalate]
  | cons p l ih =>
    cases l with
    | nil => simp [Members.ofList, Members.toks, List.intercalate]
    | cons q l =>
      simp only [Members.ofList] at ih ⊢
      rw [Members.toks, ih]
      simp [List.intercalate, List.intersperse_cons₂]

theorem intercalate_append {α : Type} (sep : List α) {a b : List (List α)} (ha : a ≠ []) (hb : b ≠ []) :
    sep.intercalate (a ++ b) = sep.intercalate a ++ sep ++ sep.intercalate b := by
  induction a with
  | nil => exact absurd rfl ha
  | cons x a ih =>
    cases a with
    | nil =>
      cases b with
      | nil => exact absurd rfl hb
      | cons y b => simp [List.intercalate, List.intersperse_cons₂]
    | cons y a =>
      have := ih (by simp)
      simp only [List.intercalate, List.cons_append, List.intersperse_cons₂, List.flatten_cons] at this ⊢
      rw [this]
      simp

theorem flushLoop_eq {N : Type} (n : Nat) (m : List (String × N)) (i : Nat) (h : i + m.length = n) :
    flushLoop n m i = [Tok.comma].intercalate (m.map (fun p => [.str p.1, .colon, .num p.2])) := by
  induction m generalizing i with
  | nil => simp [flushLoop, List.intercalate]
  | cons p m ih =>
    obtain ⟨k, v⟩ := p
    unfold flushLoop
    rw [ih (i + 1) (by simp at h; omega)]
    cases m with
    | nil =>
      have : ¬ i < n - 1 := by simp at h; omega
      simp [this, List.intercalate]
    | cons q m =>
      have : i < n - 1 := by simp at h; omega
      simp [this, List.intercalate, List.intersperse_cons₂]

theorem flatObj_toks {N : Type} (m : StdMap String N) (h : m ≠ []) : flushMap m true = (flatObj m).toks := by
  unfold flushMap flatObj
  rw [if_neg (by simpa using h), flushLoop_eq _ _ _ (by simp), toks_obj, toks_ofList, List.map_map]
  simp only [if_true]
  congr 3

theorem objLoop_eq {N : Type} (sel : String × StdMap String N → Bool) (n : Nat) (m : StdMap String (StdMap String N)) (i : Nat)
    (h : i + (m.filter sel).length = n) (hne : ∀ p ∈ m, p.2 ≠ []) :
    objLoop sel n m i = (Members.ofList ((m.filter sel).map (fun p => (p.1, flatObj p.2)))).toks := by
  rw [toks_ofList]
  induction m generalizing i with
  | nil => simp [objLoop, List.intercalate]
  | cons o m ih =>
    unfold objLoop
    by_cases hs : sel o = true
    · rw [if_pos hs]
      rw [List.filter_cons_of_pos hs] at h ⊢
      rw [ih (i + 1) (by simp at h; omega) (fun p hp => hne p (List.mem_cons_of_mem _ hp)),
        flatObj_toks _ (hne o List.mem_cons_self)]
      cases hf : m.filter sel with
      | nil =>
        have : ¬ i < n - 1 := by rw [hf] at h; simp at h; omega
        simp [this, List.intercalate]
      | cons q l =>
        have : i < n - 1 := by rw [hf] at h; simp at h; omega
        simp [this, List.intercalate, List.intersperse_cons₂]
    · rw [if_neg hs]
      rw [List.filter_cons_of_neg hs] at h ⊢
      exact ih i h (fun p hp => hne p (List.mem_cons_of_mem _ hp))

end Xdyn.Obs

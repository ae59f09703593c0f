import Verif.Model.JsonApi
import Verif.Lemmas.Waves
import Verif.Lemmas.Hdb
import Verif.Lemmas.MultiBody
import Mathlib.Algebra.Order.Field.Rat

/-!
Properties C129 to C133: JSON messages of the websocket servers.
-/

namespace Xdyn.JsonApi

open JsonText Server

variable {N : Type}

/-! ### Reading texts -/

/-- Characters that can be written as they are in a JSON string. -/
def Plain (c : Char) : Prop := c ≠ '"' ∧ c ≠ '\\' ∧ 32 ≤ c.toNat

instance (c : Char) : Decidable (Plain c) := by unfold Plain; infer_instance

theorem stringBody_plain : ∀ (k rest : List Char), (∀ c ∈ k, Plain c) → stringBody (k ++ '"' :: rest) = some (k, rest)
  | [], [], _ => by simp [stringBody]
  | [], d :: r, _ => by simp [stringBody]
  | c :: k, rest, h => by
    have ih := stringBody_plain k rest (fun x hx => h x (List.mem_cons_of_mem _ hx))
    obtain ⟨h1, h2, h3⟩ := h c List.mem_cons_self
    have : ∃ d r, k ++ '"' :: rest = d :: r := by
      cases k with
      | nil => exact ⟨_, _, rfl⟩
      | cons a k => exact ⟨_, _, rfl⟩
    obtain ⟨d, r, hd⟩ := this
    rw [List.cons_append, hd, stringBody, if_neg h1, if_neg h2, if_neg (by omega), ← hd, ih]

/-- What may follow a value: not a character of a number. -/
def Boundary (rest : List Char) : Prop := ∀ c ∈ rest.head?, isNumChar c = false

theorem skip_cons {c : Char} {r : List Char} (h : isWs c = false) : skip (c :: r) = c :: r := by
  simp [skip, h]

theorem skip_ws {w r : List Char} (h : ∀ c ∈ w, isWs c = true) : skip (w ++ r) = skip r := by
  induction w with
  | nil => rfl
  | cons c w ih =>
    show skip (c :: (w ++ r)) = _
    unfold skip
    rw [List.dropWhile_cons_of_pos (h c List.mem_cons_self)]
    exact ih (fun x hx => h x (List.mem_cons_of_mem _ hx))

theorem value_ws (readNum : List Char → Option N) {w r : List Char} (h : ∀ c ∈ w, isWs c = true) (f : Nat) : value readNum f (w ++ r) = value readNum f r := by
  cases f with
  | zero => rw [value, value]
  | succ f => rw [value, value, skip_ws h]

/-- The text is read as the value, whatever follows. -/
def Reads (readNum : List Char → Option N) (f : Nat) (text : List Char) (v : Value N) : Prop :=
  ∀ g, f ≤ g → ∀ rest, Boundary rest → value readNum g (text ++ rest) = some (v, rest)

/-- The text of a number, as read by `readNum`. -/
structure ShowsNum (readNum : List Char → Option N) (sh : N → List Char) (x : N) : Prop where
  read : readNum (sh x) = some x
  ne : sh x ≠ []
  chars : ∀ c ∈ sh x, isNumChar c = true

theorem reads_num {readNum : List Char → Option N} {sh : N → List Char} {x : N} (h : ShowsNum readNum sh x) : Reads readNum 1 (sh x) (.num x) := by
  intro g hg rest hr
  obtain ⟨g, rfl⟩ : ∃ g', g = g' + 1 := ⟨g - 1, by omega⟩
  obtain ⟨c, r, hc⟩ := List.exists_cons_of_ne_nil h.ne
  have hn : isNumChar c = true := h.chars c (by rw [hc]; simp)
  have notnum : ∀ d : Char, isNumChar d = false → c ≠ d := fun d hd e => by rw [e, hd] at hn; cases hn
  have hws : isWs c = false := by
    have a := notnum ' ' (by decide); have b := notnum '\n' (by decide); have d := notnum '\t' (by decide); have e := notnum '\r' (by decide)
    simp [isWs, a, b, d, e]
  have htake : (sh x ++ rest).takeWhile isNumChar = sh x := by
    rw [List.takeWhile_append_of_pos h.chars]
    cases rest with
    | nil => simp
    | cons a l => rw [List.takeWhile_cons_of_neg (by rw [hr a (by simp)]; simp), List.append_nil]
  have hdrop : (sh x ++ rest).dropWhile isNumChar = rest := by
    rw [List.dropWhile_append_of_pos h.chars]
    cases rest with
    | nil => rfl
    | cons a l => rw [List.dropWhile_cons_of_neg (by rw [hr a (by simp)]; simp)]
  have hs : skip (sh x ++ rest) = c :: (r ++ rest) := by rw [hc, List.cons_append, skip_cons hws]
  rw [value, hs]
  simp only
  rw [if_neg (notnum _ (by decide)), if_neg (notnum _ (by decide)), if_neg (notnum _ (by decide)), if_neg (notnum _ (by decide)),
    if_neg (notnum _ (by decide)), if_neg (notnum _ (by decide)), ← List.cons_append, ← hc, htake, hdrop, h.read]
  rfl

theorem reads_null (readNum : List Char → Option N) : Reads readNum 1 "null".toList .null := by
  intro g hg rest _
  obtain ⟨g, rfl⟩ : ∃ g', g = g' + 1 := ⟨g - 1, by omega⟩
  rw [show "null".toList = 'n' :: "ull".toList from rfl, List.cons_append, value, skip_cons (by decide)]
  simp only
  rw [if_neg (by decide), if_neg (by decide), if_neg (by decide), if_pos trivial, if_pos (by
    rw [List.isPrefixOf_iff_prefix]; exact List.prefix_append _ _)]
  rfl

theorem reads_string (readNum : List Char → Option N) {s : List Char} (h : ∀ c ∈ s, Plain c) : Reads readNum 1 ('"' :: s ++ ['"']) (.str s) := by
  intro g hg rest _
  obtain ⟨g, rfl⟩ : ∃ g', g = g' + 1 := ⟨g - 1, by omega⟩
  rw [List.append_assoc, List.cons_append, value, skip_cons (by decide)]
  simp only
  rw [if_neg (by decide), if_neg (by decide), if_pos trivial]
  have := stringBody_plain s rest h
  simp only [List.singleton_append, this, Option.map_some]

/-- A member of an object: key, text of the value, value. -/
structure Member (N : Type) where
  key : List Char
  text : List Char
  val : Value N

/-- `"key": value`. -/
def Member.line (m : Member N) : List Char := '"' :: m.key ++ '"' :: ':' :: ' ' :: m.text

theorem boundary_cons {c : Char} {r : List Char} (h : isNumChar c = false) : Boundary (c :: r) := by
  intro d hd
  simp only [List.head?_cons, Option.mem_def, Option.some.injEq] at hd
  rw [← hd]; exact h

theorem members_read {readNum : List Char → Option N} {f : Nat} {sep : List Char} (hsep : ∀ c ∈ sep, isWs c = true) :
    ∀ (ms : List (Member N)) (first : Bool) (w : List Char), ms ≠ [] → (∀ c ∈ w, isWs c = true) → (∀ m ∈ ms, (∀ c ∈ m.key, Plain c) ∧ Reads readNum f m.text m.val) →
      ∀ g, f + ms.length ≤ g → ∀ rest, members readNum g first (w ++ (List.intercalate (',' :: sep) (ms.map Member.line) ++ '}' :: rest)) =
        some (ms.map (fun m => (m.key, m.val)), rest)
  | [], _, _, h, _, _, _, _, _ => absurd rfl h
  | m :: ms, first, w, _, hw, hall, g, hg, rest => by
    obtain ⟨g, rfl⟩ : ∃ g', g = g' + 1 := ⟨g - 1, by simp at hg; omega⟩
    obtain ⟨hk, hv⟩ := hall m List.mem_cons_self
    have hline : ∀ r, m.line ++ r = '"' :: (m.key ++ '"' :: (':' :: ([' '] ++ (m.text ++ r)))) := by
      intro r; simp [Member.line]
    cases ms with
    | nil =>
      simp only [List.map_cons, List.map_nil]
      rw [show List.intercalate (',' :: sep) [m.line] = m.line by simp [List.intercalate], members, skip_ws hw, hline, skip_cons (by decide)]
      simp only
      rw [if_neg (by decide), if_pos trivial, stringBody_plain _ _ hk]
      simp only
      rw [skip_cons (by decide)]
      simp only [if_true]
      rw [value_ws readNum (by decide), hv g (by simp at hg; omega) _ (boundary_cons (by decide))]
      simp only
      rw [skip_cons (by decide)]
      simp
    | cons m' ms =>
      have hint : List.intercalate (',' :: sep) ((m :: m' :: ms).map Member.line) ++ '}' :: rest =
          m.line ++ (',' :: (sep ++ (List.intercalate (',' :: sep) ((m' :: ms).map Member.line) ++ '}' :: rest))) := by
        simp [List.intercalate, List.intersperse]
      rw [hint, members, skip_ws hw, hline, skip_cons (by decide)]
      simp only
      rw [if_neg (by decide), if_pos trivial, stringBody_plain _ _ hk]
      simp only
      rw [skip_cons (by decide)]
      simp only [if_true]
      rw [value_ws readNum (by decide), hv g (by simp at hg; omega) _ (boundary_cons (by decide))]
      simp only
      rw [skip_cons (by decide)]
      simp only
      rw [if_neg (by decide), if_pos trivial,
        members_read hsep (m' :: ms) false sep (by simp) hsep (fun x hx => hall x (List.mem_cons_of_mem _ hx)) g (by simp at hg ⊢; omega) rest]
      simp

theorem reads_object {readNum : List Char → Option N} {f : Nat} {sep : List Char} (hsep : ∀ c ∈ sep, isWs c = true) (ms : List (Member N))
    (hall : ∀ m ∈ ms, (∀ c ∈ m.key, Plain c) ∧ Reads readNum f m.text m.val) :
    Reads readNum (f + ms.length + 2) ('{' :: (List.intercalate (',' :: sep) (ms.map Member.line) ++ ['}'])) (.obj (ms.map (fun m => (m.key, m.val)))) := by
  intro g hg rest _
  obtain ⟨g, rfl⟩ : ∃ g', g = g' + 1 := ⟨g - 1, by omega⟩
  rw [List.cons_append, value, skip_cons (by decide)]
  simp only
  rw [if_pos trivial]
  cases ms with
  | nil =>
    obtain ⟨g, rfl⟩ : ∃ g', g = g' + 1 := ⟨g - 1, by simp at hg; omega⟩
    simp only [List.map_nil, List.intercalate, List.intersperse, List.flatten_nil, List.nil_append, List.singleton_append]
    rw [members, skip_cons (by decide)]
    simp
  | cons m ms =>
    have := members_read hsep (m :: ms) true [] (by simp) (by simp) hall g (by simp at hg ⊢; omega) rest
    rw [List.nil_append] at this
    rw [List.append_assoc, List.singleton_append, this]
    rfl

theorem elements_read {readNum : List Char → Option N} {f : Nat} {sep fin : List Char} (hsep : ∀ c ∈ sep, isWs c = true) (hfin : ∀ c ∈ fin, isWs c = true) :
    ∀ (es : List (List Char × Value N)) (first : Bool) (w : List Char), es ≠ [] → (∀ c ∈ w, isWs c = true) →
      (∀ e ∈ es, Reads readNum f e.1 e.2 ∧ ∃ c r, e.1 = c :: r ∧ isWs c = false ∧ c ≠ ']') →
      ∀ g, f + es.length ≤ g → ∀ rest, elements readNum g first (w ++ (List.intercalate (',' :: sep) (es.map Prod.fst) ++ (fin ++ ']' :: rest))) =
        some (es.map Prod.snd, rest)
  | [], _, _, h, _, _, _, _, _ => absurd rfl h
  | e :: es, first, w, _, hw, hall, g, hg, rest => by
    obtain ⟨g, rfl⟩ : ∃ g', g = g' + 1 := ⟨g - 1, by simp at hg; omega⟩
    obtain ⟨hv, c, r, hc, hws, hne⟩ := hall e List.mem_cons_self
    have hfb : Boundary (fin ++ ']' :: rest) := by
      cases fin with
      | nil => exact boundary_cons (by decide)
      | cons a l =>
        refine boundary_cons ?_
        have := hfin a List.mem_cons_self
        simp only [isWs, Bool.or_eq_true, beq_iff_eq] at this
        rcases this with ((h | h) | h) | h <;> rw [h] <;> decide
    have hstart : ∀ q, skip (e.1 ++ q) = c :: (r ++ q) := by intro q; rw [hc, List.cons_append, skip_cons hws]
    cases es with
    | nil =>
      simp only [List.map_cons, List.map_nil]
      rw [show List.intercalate (',' :: sep) [e.1] = e.1 by simp [List.intercalate], elements, skip_ws hw, hstart]
      simp only
      rw [if_neg hne, ← List.cons_append, ← hc, hv g (by simp at hg; omega) _ hfb]
      simp only
      rw [skip_ws hfin, skip_cons (by decide)]
      simp
    | cons e' es =>
      have hint : List.intercalate (',' :: sep) ((e :: e' :: es).map Prod.fst) ++ (fin ++ ']' :: rest) =
          e.1 ++ (',' :: (sep ++ (List.intercalate (',' :: sep) ((e' :: es).map Prod.fst) ++ (fin ++ ']' :: rest)))) := by
        simp [List.intercalate, List.intersperse]
      rw [hint, elements, skip_ws hw, hstart]
      simp only
      rw [if_neg hne, ← List.cons_append, ← hc, hv g (by simp at hg; omega) _ (boundary_cons (by decide))]
      simp only
      rw [skip_cons (by decide)]
      simp only
      rw [if_neg (by decide), if_pos trivial,
        elements_read hsep hfin (e' :: es) false sep (by simp) hsep (fun x hx => hall x (List.mem_cons_of_mem _ hx)) g (by simp at hg ⊢; omega) rest]
      simp

theorem reads_array {readNum : List Char → Option N} {f : Nat} {sep fin : List Char} (hsep : ∀ c ∈ sep, isWs c = true) (hfin : ∀ c ∈ fin, isWs c = true)
    (es : List (List Char × Value N)) (hne : es ≠ []) (hall : ∀ e ∈ es, Reads readNum f e.1 e.2 ∧ ∃ c r, e.1 = c :: r ∧ isWs c = false ∧ c ≠ ']') :
    Reads readNum (f + es.length + 1) ('[' :: (List.intercalate (',' :: sep) (es.map Prod.fst) ++ (fin ++ [']']))) (.arr (es.map Prod.snd)) := by
  intro g hg rest _
  obtain ⟨g, rfl⟩ : ∃ g', g = g' + 1 := ⟨g - 1, by omega⟩
  rw [List.cons_append, value, skip_cons (by decide)]
  simp only
  rw [if_neg (by decide), if_pos trivial]
  have := elements_read hsep hfin es true [] hne (by simp) hall g (by omega) rest
  rw [List.nil_append] at this
  rw [List.append_assoc, List.append_assoc, List.singleton_append, this]
  rfl

theorem parse_of_reads {readNum : List Char → Option N} {f : Nat} {text : List Char} {v : Value N} (h : Reads readNum f text v) (hf : f ≤ text.length + 1) :
    parse readNum text = some v := by
  have := h (text.length + 1) hf [] (by intro c hc; cases hc)
  rw [List.append_nil] at this
  unfold parse
  rw [this]
  rfl

/-! ### C129: response of the co-simulation server -/

/-- A state whose values are finite numbers, with extra observations that are numbers or NaN. -/
structure Sample (N : Type) extends YamlState N where
  extra : List (String × Option N)

/-- A number or NaN in the C++ program. -/
def dblOf : Option N → Dbl N
  | some x => .fin x
  | none => .nan

/-- The value which should represent a number or NaN: `null` for NaN. -/
def valOf : Option N → Value N
  | some x => .num x
  | none => .null

def textOf (sh : N → List Char) : Option N → List Char
  | some x => sh x
  | none => "null".toList

/-- The state in the C++ program. -/
def Sample.out (s : Sample N) : OutState N :=
  { t := .fin s.t, x := .fin s.x, y := .fin s.y, z := .fin s.z, u := .fin s.u, v := .fin s.v, w := .fin s.w, p := .fin s.p, q := .fin s.q, r := .fin s.r, qr := .fin s.qr, qi := .fin s.qi, qj := .fin s.qj, qk := .fin s.qk, phi := .fin s.phi, theta := .fin s.theta, psi := .fin s.psi,
    extra := s.extra.map (fun p => (p.1, dblOf p.2)) }

/-- The JSON object that should represent a state: one number by state, and an object with the extra observations (`null` for NaN). -/
def Sample.expected (s : Sample N) : Value N :=
  .obj [("t".toList, .num s.t), ("x".toList, .num s.x), ("y".toList, .num s.y), ("z".toList, .num s.z), ("u".toList, .num s.u), ("v".toList, .num s.v), ("w".toList, .num s.w), ("p".toList, .num s.p), ("q".toList, .num s.q), ("r".toList, .num s.r), ("qr".toList, .num s.qr), ("qi".toList, .num s.qi), ("qj".toList, .num s.qj), ("qk".toList, .num s.qk), ("phi".toList, .num s.phi), ("theta".toList, .num s.theta), ("psi".toList, .num s.psi),
    ("extra_observations".toList, .obj (s.extra.map (fun p => (p.1.toList, valOf p.2))))]

theorem obsLoop_eq (sh : N → List Char) (l : List (String × Option N)) :
    obsLoop sh (l.map (fun p => (p.1, dblOf p.2))) =
      List.intercalate (',' :: [' ']) ((l.map (fun p => (⟨p.1.toList, textOf sh p.2,
        valOf p.2⟩ : Member N))).map Member.line) := by
  have hentry : ∀ p : String × Option N, obsEntry sh (p.1, dblOf p.2) =
      Member.line (⟨p.1.toList, textOf sh p.2, valOf p.2⟩ : Member N) := by
    rintro ⟨k, _ | x⟩ <;> simp [obsEntry, Member.line, Dbl.text, dblOf, textOf]
  induction l with
  | nil => rfl
  | cons p l ih =>
    cases l with
    | nil =>
      simp only [List.map_cons, List.map_nil, obsLoop]
      rw [hentry]
      simp [List.intercalate]
    | cons q l =>
      simp only [List.map_cons, obsLoop] at ih ⊢
      rw [hentry, ih]
      simp [List.intercalate, List.intersperse]

theorem obsText_reads {readNum : List Char → Option N} {sh : N → List Char} (hs : ∀ x, ShowsNum readNum sh x) (l : List (String × Option N))
    (hk : ∀ p ∈ l, ∀ c ∈ p.1.toList, Plain c) :
    Reads readNum (l.length + 3) (obsText sh (l.map (fun p => (p.1, dblOf p.2))))
      (.obj (l.map (fun p => (p.1.toList, valOf p.2)))) := by
  have := reads_object (readNum := readNum) (f := 1) (sep := [' ']) (by decide)
    (l.map (fun p => (⟨p.1.toList, textOf sh p.2, valOf p.2⟩ : Member N)))
    (by
      intro m hm
      rw [List.mem_map] at hm
      obtain ⟨⟨k, o⟩, hp, rfl⟩ := hm
      refine ⟨hk _ hp, ?_⟩
      cases o with
      | some x => exact reads_num (hs x)
      | none => exact reads_null readNum)
  rw [← obsLoop_eq] at this
  simp only [List.length_map, List.map_map] at this
  rw [show l.length + 3 = 1 + l.length + 2 by omega]
  exact this

/-- Entries followed by a last member. -/
theorem entries_eq (sh : N → List Char) (last : Member N) : ∀ l : List (String × N),
    (l.map (fun p => (p.1, Dbl.fin p.2))).flatMap (entry sh) ++ last.line =
      List.intercalate (',' :: [' ']) ((l.map (fun p => (⟨p.1.toList, sh p.2, .num p.2⟩ : Member N)) ++ [last]).map Member.line)
  | [] => by simp [List.intercalate]
  | p :: l => by
    have ih := entries_eq sh last l
    have hne : ∃ a q, (l.map (fun p => (⟨p.1.toList, sh p.2, .num p.2⟩ : Member N)) ++ [last]).map Member.line = a :: q := by
      cases l with
      | nil => exact ⟨_, _, rfl⟩
      | cons b l => exact ⟨_, _, rfl⟩
    obtain ⟨a, q, haq⟩ := hne
    rw [List.map_cons, List.flatMap_cons, List.append_assoc, ih, List.map_cons, List.cons_append, List.map_cons, haq]
    simp [List.intercalate, List.intersperse, entry, Member.line, Dbl.text]

theorem stateEntries_out (s : Sample N) : stateEntries s.out =
    [("t", s.t), ("x", s.x), ("y", s.y), ("z", s.z), ("u", s.u), ("v", s.v), ("w", s.w), ("p", s.p), ("q", s.q), ("r", s.r), ("qr", s.qr), ("qi", s.qi), ("qj", s.qj), ("qk", s.qk), ("phi", s.phi), ("theta", s.theta), ("psi", s.psi)].map (fun p => (p.1, Dbl.fin p.2)) := rfl

theorem stateText_reads {readNum : List Char → Option N} {sh : N → List Char} (hs : ∀ x, ShowsNum readNum sh x) (s : Sample N)
    (hk : ∀ p ∈ s.extra, ∀ c ∈ p.1.toList, Plain c) :
    Reads readNum (s.extra.length + 23) (stateText sh s.out) s.expected := by
  let ent : List (String × N) := [("t", s.t), ("x", s.x), ("y", s.y), ("z", s.z), ("u", s.u), ("v", s.v), ("w", s.w), ("p", s.p), ("q", s.q), ("r", s.r), ("qr", s.qr), ("qi", s.qi), ("qj", s.qj), ("qk", s.qk), ("phi", s.phi), ("theta", s.theta), ("psi", s.psi)]
  let last : Member N := ⟨"extra_observations".toList, obsText sh (s.extra.map (fun p => (p.1, dblOf p.2))),
        .obj (s.extra.map (fun p => (p.1.toList, valOf p.2)))⟩
  have hplain : ∀ k ∈ ent.map Prod.fst, ∀ c ∈ k.toList, Plain c := by
    show ∀ k ∈ ["t", "x", "y", "z", "u", "v", "w", "p", "q", "r", "qr", "qi", "qj", "qk", "phi", "theta", "psi"], ∀ c ∈ k.toList, Plain c
    decide
  have := reads_object (readNum := readNum) (f := s.extra.length + 3) (sep := [' ']) (by decide)
    (ent.map (fun p => (⟨p.1.toList, sh p.2, .num p.2⟩ : Member N)) ++ [last])
    (by
      intro m hm
      rcases List.mem_append.mp hm with hm | hm
      · obtain ⟨p, hp, rfl⟩ := List.mem_map.mp hm
        exact ⟨hplain p.1 (List.mem_map_of_mem hp), fun g hg => reads_num (hs p.2) g (by omega)⟩
      · rw [List.mem_singleton] at hm
        subst hm
        exact ⟨by show ∀ c ∈ "extra_observations".toList, Plain c; decide, obsText_reads hs s.extra hk⟩)
  have htext : stateText sh s.out = '{' :: (List.intercalate (',' :: [' '])
      ((ent.map (fun p => (⟨p.1.toList, sh p.2, .num p.2⟩ : Member N)) ++ [last]).map Member.line) ++ ['}']) := by
    rw [← entries_eq]
    unfold stateText
    rw [stateEntries_out]
    simp only [List.append_assoc, last, Member.line, ent]
    rfl
  have hv : s.expected = .obj ((ent.map (fun p => (⟨p.1.toList, sh p.2, .num p.2⟩ : Member N)) ++ [last]).map (fun m => (m.key, m.val))) := by
    simp only [Sample.expected, ent, last, List.map_cons, List.map_nil, List.cons_append, List.nil_append]
  have hl : (ent.map (fun p => (⟨p.1.toList, sh p.2, .num p.2⟩ : Member N)) ++ [last]).length = 18 := rfl
  rw [htext, hv]
  exact fun g hg => this g (by rw [hl]; omega)

theorem statesLoop_eq (sh : N → List Char) (l : List (OutState N)) (hne : l ≠ []) :
    statesLoop sh l = List.intercalate (',' :: ['\n']) (l.map (stateText sh)) ++ ['\n'] := by
  induction l with
  | nil => exact absurd rfl hne
  | cons s l ih =>
    cases l with
    | nil => simp [statesLoop, List.intercalate]
    | cons s' l =>
      rw [statesLoop, ih (by simp)]
      simp [List.intercalate, List.intersperse]

theorem stateText_length (sh : N → List Char) (s : Sample N) : s.extra.length + 30 ≤ (stateText sh s.out).length := by
  have h : ∀ l : List (String × Dbl N), l.length ≤ (obsLoop sh l).length := by
    intro l
    induction l with
    | nil => simp
    | cons p l ih =>
      have h1 : 1 ≤ (obsEntry sh p).length := by
        unfold obsEntry
        rw [List.length_append, List.length_append, List.length_append]
        have : "\"".toList.length = 1 := rfl
        omega
      cases l with
      | nil => simpa [obsLoop] using h1
      | cons q l =>
        simp only [obsLoop, List.length_append, List.length_cons] at ih ⊢
        omega
  have h' := h s.out.extra
  have he : s.out.extra.length = s.extra.length := by simp [Sample.out]
  have hent : ∀ l : List (String × Dbl N), 2 * l.length ≤ (l.flatMap (entry sh)).length := by
    intro l
    induction l with
    | nil => simp
    | cons p l ih =>
      have h1 : 2 ≤ (entry sh p).length := by
        unfold entry
        rw [List.length_append]
        have : ", ".toList.length = 2 := rfl
        omega
      rw [List.flatMap_cons, List.length_append, List.length_cons]
      omega
  have h17 := hent (stateEntries s.out)
  have hl : (stateEntries s.out).length = 17 := rfl
  unfold stateText obsText
  rw [List.length_append, List.length_append, List.length_append, List.length_append, List.length_append, List.length_append]
  omega

/-- **C129 (partial)** The response of the co-simulation server is a JSON array with one object by state, in order: each number is read as the value it was
written from, and the extra observations are all there; for finite states, and extra observations whose names have no quote, backslash or control
character. -/
theorem response_is_json_partial {readNum : List Char → Option N} {sh : N → List Char} (hs : ∀ x, ShowsNum readNum sh x) (l : List (Sample N))
    (hk : ∀ s ∈ l, ∀ p ∈ s.extra, ∀ c ∈ p.1.toList, Plain c) :
    parse readNum (encode sh (l.map Sample.out)) = some (.arr (l.map Sample.expected)) := by
  by_cases hne : l = []
  · subst hne
    simp only [List.map_nil, encode, statesLoop]
    rfl
  · have hne' : l.map Sample.out ≠ [] := by simpa using hne
    have hB : ∀ (l : List (Sample N)), ∀ s ∈ l, s.extra.length + 23 ≤ (l.map (fun s => s.extra.length + 23)).sum := by
      intro l
      induction l with
      | nil => simp
      | cons a l ih =>
        intro x hx
        rw [List.map_cons, List.sum_cons]
        rcases List.mem_cons.mp hx with rfl | hx
        · omega
        · have := ih x hx; omega
    have hlen : ∀ (l : List (Sample N)), (l.map (fun s => s.extra.length + 23)).sum + l.length ≤ (statesLoop sh (l.map Sample.out)).length := by
      intro l
      induction l with
      | nil => simp
      | cons a l ih =>
        have := stateText_length sh a
        rw [List.map_cons, List.sum_cons, List.length_cons]
        cases l with
        | nil => simp [statesLoop]; omega
        | cons b l =>
          simp only [List.map_cons, statesLoop, List.length_append] at ih ⊢
          omega
    have hr := reads_array (readNum := readNum) (f := (l.map (fun s => s.extra.length + 23)).sum) (sep := ['\n']) (fin := ['\n']) (by decide) (by decide)
      (l.map (fun s => (stateText sh s.out, s.expected))) (by simpa using hne) (by
        intro e he
        rw [List.mem_map] at he
        obtain ⟨s, hs', rfl⟩ := he
        refine ⟨fun g hg => stateText_reads hs s (hk s hs') g ((hB l s hs').trans hg), ?_⟩
        exact ⟨'{', (stateText sh s.out).tail, by simp [stateText], by decide, by decide⟩)
    have htext : encode sh (l.map Sample.out) =
        '[' :: (List.intercalate (',' :: ['\n']) ((l.map (fun s => (stateText sh s.out, s.expected))).map Prod.fst) ++ (['\n'] ++ [']'])) := by
      unfold encode
      rw [statesLoop_eq sh _ hne']
      simp [Function.comp_def]
    rw [← htext] at hr
    have := parse_of_reads hr (by
      have := hlen l
      simp only [encode, List.length_append, List.length_map]
      have h1 : "[".toList.length = 1 := rfl
      omega)
    rw [this]
    simp [Function.comp_def]

/-- **C129, refuted** A state that is not a number makes the response unreadable: the text of NaN is not JSON. -/
theorem nan_response_refuted (readNum : List Char → Option N) (sh : N → List Char) (s : OutState N) (l : List (OutState N)) (h : s.t = .nan) :
    parse readNum (encode sh (s :: l)) = none := by
  have hv : ∀ f (rest : List Char), value readNum f ("nan".toList ++ rest) = none := by
    intro f rest
    cases f with
    | zero => rw [value]
    | succ f =>
      rw [show "nan".toList ++ rest = 'n' :: 'a' :: 'n' :: rest from rfl, value, skip_cons (by decide)]
      simp only
      rw [if_neg (by decide), if_neg (by decide), if_neg (by decide), if_pos trivial, if_neg (by simp [List.isPrefixOf])]
  have ho : ∀ f (rest : List Char), value readNum f ("{\"t\": nan".toList ++ rest) = none := by
    intro f rest
    cases f with
    | zero => rw [value]
    | succ f =>
      rw [show "{\"t\": nan".toList ++ rest = '{' :: '"' :: (['t'] ++ '"' :: (':' :: ([' '] ++ ("nan".toList ++ rest)))) from rfl, value,
        skip_cons (by decide)]
      simp only
      rw [if_pos trivial]
      cases f with
      | zero => rw [members]; rfl
      | succ f =>
        rw [members, skip_cons (by decide)]
        simp only
        rw [if_neg (by decide), if_pos trivial, stringBody_plain _ _ (by decide)]
        simp only
        rw [skip_cons (by decide)]
        simp only
        rw [if_pos trivial, value_ws readNum (by decide), hv]
        rfl
  have ha : ∀ f (rest : List Char), value readNum f ("[{\"t\": nan".toList ++ rest) = none := by
    intro f rest
    cases f with
    | zero => rw [value]
    | succ f =>
      rw [show "[{\"t\": nan".toList ++ rest = '[' :: ("{\"t\": nan".toList ++ rest) from rfl, value, skip_cons (by decide)]
      simp only
      rw [if_neg (by decide), if_pos trivial]
      cases f with
      | zero => rw [elements]; rfl
      | succ f =>
        have hc : "{\"t\": nan".toList ++ rest = '{' :: ("\"t\": nan".toList ++ rest) := rfl
        rw [hc, elements, skip_cons (by decide)]
        simp only
        rw [if_neg (by decide), ← hc, ho]
        rfl
  obtain ⟨rest, hr⟩ : ∃ rest, encode sh (s :: l) = "[{\"t\": nan".toList ++ rest := by
    have hst : ∃ r, stateText sh s = "{\"t\": nan".toList ++ r := by
      refine ⟨", ".toList ++ ((stateEntries s).tail.flatMap (entry sh) ++ ("\"extra_observations\": ".toList ++ (obsText sh s.extra ++ "}".toList))), ?_⟩
      have he : stateEntries s = ("t", .nan) :: (stateEntries s).tail := by rw [← h]; rfl
      unfold stateText
      rw [he, List.flatMap_cons, entry]
      simp only [Dbl.text, List.append_assoc, List.tail_cons]
      rfl
    obtain ⟨r, hst⟩ := hst
    have hloop : ∃ r', statesLoop sh (s :: l) = stateText sh s ++ r' := by
      cases l with
      | nil => exact ⟨_, rfl⟩
      | cons a l => exact ⟨_, by rw [statesLoop, List.append_assoc, List.append_assoc]⟩
    obtain ⟨r', hloop⟩ := hloop
    refine ⟨r ++ (r' ++ "]".toList), ?_⟩
    unfold encode
    rw [hloop, hst]
    simp only [List.append_assoc]
    rfl
  unfold parse
  rw [hr, ha]

/-- Numbers of the examples: natural numbers in base 10, zero or one digit. -/
def digitText (n : Fin 10) : List Char := [Char.ofNat (48 + n.val)]

def readDigit (s : List Char) : Option (Fin 10) :=
  match s with
  | [c] => if 48 ≤ c.toNat ∧ c.toNat < 58 then some (Fin.ofNat 10 (c.toNat - 48)) else none
  | _ => none

theorem digit_shows : ∀ x : Fin 10, ShowsNum readDigit digitText x := by
  have h : ∀ x : Fin 10, readDigit (digitText x) = some x ∧ digitText x ≠ [] ∧ ∀ c ∈ digitText x, isNumChar c = true := by decide
  exact fun x => ⟨(h x).1, (h x).2.1, (h x).2.2⟩

def exampleSample (name : String) : Sample (Fin 10) :=
  { x := 1, y := 2, z := 3, u := 4, v := 5, w := 6, p := 7, q := 8, r := 9, qr := 1, qi := 0, qj := 0, qk := 0, t := 5, phi := 0, theta := 1, psi := 2,
    extra := [(name, some 3), ("b", none)] }

/-- The hypotheses of `response_is_json_partial` are met. -/
example : (∀ x, ShowsNum readDigit digitText x) ∧ ∀ s ∈ [exampleSample "Fx(heave)", exampleSample "a b"], ∀ p ∈ s.extra, ∀ c ∈ p.1.toList, Plain c :=
  ⟨digit_shows, by decide +kernel⟩

/-- **C129, refuted** The names of the extra observations are written as they are: a quote makes the response unreadable. -/
theorem quoted_name_refuted : (parse readDigit (encode digitText [(exampleSample "a\"b").out])).isNone = true := by decide +kernel

/-! ### C130: from a response to the next request -/

/-- **C130** The states of a response can be sent back: a request whose `states` is the content of a response is decoded to the same states (the angles and the extra
observations are not read). -/
theorem response_can_be_sent_back [Zero N] {readNum : List Char → Option N} {sh : N → List Char} (hs : ∀ x, ShowsNum readNum sh x) (l : List (Sample N))
    (hk : ∀ s ∈ l, ∀ p ∈ s.extra, ∀ c ∈ p.1.toList, Plain c) {v : Value N} (hv : parse readNum (encode sh (l.map Sample.out)) = some v)
    {m : List (List Char × Value N)} {dt : N} (hst : get? m "states" = some v) (hdt : get? m "Dt" = some (.num dt)) (hc : get? m "commands" = none) :
    decode (.obj m) = .ok { Dt := dt, states := l.map (fun s => { s.toYamlState with phi := 0, theta := 0, psi := 0 }), commands := fun _ => none } := by
  rw [response_is_json_partial hs l hk, Option.some.injEq] at hv
  subst hv
  have hone : ∀ s : Sample N, decodeState s.expected = .ok { s.toYamlState with phi := 0, theta := 0, psi := 0 } := by
    intro s
    simp [decodeState, findDouble, Sample.expected, get?, bind, Except.bind, pure, Except.pure]
  have hmap : (l.map Sample.expected).mapM decodeState = .ok (l.map (fun s => { s.toYamlState with phi := 0, theta := 0, psi := 0 })) := by
    clear hk hst
    induction l with
    | nil => rfl
    | cons s l ih =>
      rw [List.map_cons, List.mapM_cons, hone, ih]
      rfl
  unfold decode
  simp only [hst, findOptionalDouble, hdt, bind, Except.bind, hmap, commandsMember, hc, pure, Except.pure]

/-! ### C131: requests -/

/-- The JSON object `v` gives the fourteen values of the state (the angles are not in a request). -/
structure StateOf [Zero N] (v : Value N) (s : YamlState N) : Prop where
  content : ∃ m, v = .obj m ∧ get? m "t" = some (.num s.t) ∧ get? m "x" = some (.num s.x) ∧ get? m "y" = some (.num s.y) ∧ get? m "z" = some (.num s.z) ∧ get? m "u" = some (.num s.u) ∧ get? m "v" = some (.num s.v) ∧ get? m "w" = some (.num s.w) ∧ get? m "p" = some (.num s.p) ∧ get? m "q" = some (.num s.q) ∧ get? m "r" = some (.num s.r) ∧ get? m "qr" = some (.num s.qr) ∧ get? m "qi" = some (.num s.qi) ∧ get? m "qj" = some (.num s.qj) ∧ get? m "qk" = some (.num s.qk)
  angles : s.phi = 0 ∧ s.theta = 0 ∧ s.psi = 0

theorem findDouble_iff {k : String} {v : Value N} {d : N} : findDouble k v = .ok d ↔ ∃ m, v = .obj m ∧ get? m k = some (.num d) := by
  constructor
  · intro h
    cases v with
    | obj m =>
      refine ⟨m, rfl, ?_⟩
      simp only [findDouble] at h
      split at h
      · rename_i n hn
        rw [hn]
        cases h
        rfl
      · cases h
    | _ => cases h
  · rintro ⟨m, rfl, h⟩
    simp only [findDouble, h]

theorem decodeState_iff [Zero N] {v : Value N} {s : YamlState N} : decodeState v = .ok s ↔ StateOf v s := by
  constructor
  · intro h
    unfold decodeState at h
    obtain ⟨a0, h0, h⟩ := Multi.bind_ok h
    obtain ⟨a1, h1, h⟩ := Multi.bind_ok h
    obtain ⟨a2, h2, h⟩ := Multi.bind_ok h
    obtain ⟨a3, h3, h⟩ := Multi.bind_ok h
    obtain ⟨a4, h4, h⟩ := Multi.bind_ok h
    obtain ⟨a5, h5, h⟩ := Multi.bind_ok h
    obtain ⟨a6, h6, h⟩ := Multi.bind_ok h
    obtain ⟨a7, h7, h⟩ := Multi.bind_ok h
    obtain ⟨a8, h8, h⟩ := Multi.bind_ok h
    obtain ⟨a9, h9, h⟩ := Multi.bind_ok h
    obtain ⟨a10, h10, h⟩ := Multi.bind_ok h
    obtain ⟨a11, h11, h⟩ := Multi.bind_ok h
    obtain ⟨a12, h12, h⟩ := Multi.bind_ok h
    obtain ⟨a13, h13, h⟩ := Multi.bind_ok h
    simp only [pure, Except.pure, Except.ok.injEq] at h
    subst h
    obtain ⟨m, hm, e0⟩ := findDouble_iff.mp h0
    subst hm
    have e : ∀ {k : String} {d : N}, findDouble k (.obj m) = .ok d → get? m k = some (.num d) := by
      intro k d h
      obtain ⟨m', hm, e⟩ := findDouble_iff.mp h
      cases hm
      exact e
    exact ⟨⟨m, rfl, e0, e h1, e h2, e h3, e h4, e h5, e h6, e h7, e h8, e h9, e h10, e h11, e h12, e h13⟩, rfl, rfl, rfl⟩
  · rintro ⟨⟨m, rfl, h0, h1, h2, h3, h4, h5, h6, h7, h8, h9, h10, h11, h12, h13⟩, hphi, htheta, hpsi⟩
    obtain ⟨⟨x, y, z, u, v, w, p, q, r, qr, qi, qj, qk⟩, t, phi, theta, psi⟩ := s
    simp only at h0 h1 h2 h3 h4 h5 h6 h7 h8 h9 h10 h11 h12 h13 hphi htheta hpsi
    subst hphi htheta hpsi
    unfold decodeState findDouble
    simp only [h0, h1, h2, h3, h4, h5, h6, h7, h8, h9, h10, h11, h12, h13, bind, Except.bind, pure, Except.pure]

/-- The commands of a request: each one has the value of the first member with its name. -/
def CommandsOf (m : List (List Char × Value N)) (c : String → Option N) : Prop :=
  (∀ p ∈ m, ∃ d, get? m (String.ofList p.1) = some (.num d)) ∧
  ∀ n, c n = match get? m n with
    | some (.num d) => some d
    | _ => none

theorem decodeCommands_iff {m : List (List Char × Value N)} {c : String → Option N} : decodeCommands m = .ok c ↔ CommandsOf m c := by
  have key : ∀ (l : List (List Char × Value N)) (c0 c : String → Option N),
      l.foldlM (fun c p => do
        let name := String.ofList p.1
        let d ← findDouble name (.obj m)
        return (fun n => if n = name then some d else c n)) c0 = Except.ok c ↔
      (∀ p ∈ l, ∃ d, get? m (String.ofList p.1) = some (.num d)) ∧
      ∀ n, c n = if (∃ p ∈ l, String.ofList p.1 = n) then (match get? m n with | some (.num d) => some d | _ => none) else c0 n := by
    intro l
    induction l with
    | nil =>
      intro c0 c
      simp only [List.foldlM_nil, pure, Except.pure, Except.ok.injEq, List.not_mem_nil, false_and, exists_false, if_false]
      constructor
      · rintro rfl; exact ⟨fun p hp => hp.elim, fun n => rfl⟩
      · rintro ⟨-, h⟩; exact funext (fun n => (h n).symm)
    | cons a l ih =>
      intro c0 c
      rw [List.foldlM_cons]
      cases hd : findDouble (String.ofList a.1) (Value.obj m) with
      | error e =>
        simp only [bind, Except.bind, hd]
        constructor
        · intro h; cases h
        · rintro ⟨h, -⟩
          obtain ⟨d, hd'⟩ := h a List.mem_cons_self
          rw [findDouble_iff.mpr ⟨m, rfl, hd'⟩] at hd
          cases hd
      | ok d =>
        obtain ⟨m', hm', hd'⟩ := findDouble_iff.mp hd
        cases hm'
        have hih := ih (fun n => if n = String.ofList a.1 then some d else c0 n) c
        simp only [bind, Except.bind, pure, Except.pure, hd] at hih ⊢
        rw [hih]
        have hfun : ∀ n, (if (∃ p ∈ l, String.ofList p.1 = n) then (match get? m n with | some (.num d) => some d | _ => none)
              else if n = String.ofList a.1 then some d else c0 n) =
            if (∃ p ∈ a :: l, String.ofList p.1 = n) then (match get? m n with | some (.num d) => some d | _ => none) else c0 n := by
          intro n
          by_cases h1 : ∃ p ∈ l, String.ofList p.1 = n
          · obtain ⟨p, hp, hpn⟩ := h1
            rw [if_pos ⟨p, hp, hpn⟩, if_pos ⟨p, List.mem_cons_of_mem _ hp, hpn⟩]
          · rw [if_neg h1]
            by_cases h2 : n = String.ofList a.1
            · rw [if_pos h2, if_pos ⟨a, List.mem_cons_self, h2.symm⟩, h2, hd']
            · rw [if_neg h2, if_neg]
              rintro ⟨p, hp, hpn⟩
              rcases List.mem_cons.mp hp with rfl | hp
              · exact h2 hpn.symm
              · exact h1 ⟨p, hp, hpn⟩
        constructor
        · rintro ⟨g1, g2⟩
          refine ⟨?_, fun n => by rw [g2 n, hfun n]⟩
          intro p hp
          rcases List.mem_cons.mp hp with rfl | hp
          · exact ⟨d, hd'⟩
          · exact g1 p hp
        · rintro ⟨g1, g2⟩
          exact ⟨fun p hp => g1 p (List.mem_cons_of_mem _ hp), fun n => by rw [g2 n, hfun n]⟩
  unfold decodeCommands
  rw [key m (fun _ => none) c]
  unfold CommandsOf
  refine and_congr_right (fun _ => ?_)
  have hn : ∀ n, (if (∃ p ∈ m, String.ofList p.1 = n) then (match get? m n with | some (.num d) => some d | _ => none) else none) =
      (match get? m n with | some (.num d) => some d | _ => (none : Option N)) := by
    intro n
    by_cases h : ∃ p ∈ m, String.ofList p.1 = n
    · rw [if_pos h]
    · rw [if_neg h]
      have : get? m n = none := by
        unfold get?
        rw [Option.map_eq_none_iff, List.find?_eq_none]
        intro p hp hpn
        refine h ⟨p, hp, ?_⟩
        rw [beq_iff_eq] at hpn
        rw [hpn, String.ofList_toList]
      rw [this]
  exact forall_congr' (fun n => by rw [hn n])

/-- **C131** A request is accepted exactly when it is an object with an array `states` of objects that have the fourteen numbers of a state, and, if they are there, a
number `Dt` and an object (or null) `commands` of numbers; the inputs of the simulation are then the values of these keys.  In particular the order of the
keys does not matter, and other keys are ignored. -/
theorem request_accepted_iff [Zero N] (document : Value N) (y : YamlInputs N) :
    decode document = .ok y ↔ ∃ m l, document = .obj m ∧ get? m "states" = some (.arr l) ∧ List.Forall₂ StateOf l y.states ∧
      ((get? m "Dt" = none ∧ y.Dt = 0) ∨ get? m "Dt" = some (.num y.Dt)) ∧
      (((get? m "commands" = none ∨ get? m "commands" = some .null) ∧ y.commands = fun _ => none) ∨
        ∃ c, get? m "commands" = some (.obj c) ∧ CommandsOf c y.commands) := by
  have hmap : ∀ (l : List (Value N)) (s : List (YamlState N)), l.mapM decodeState = .ok s ↔ List.Forall₂ StateOf l s := by
    intro l
    induction l with
    | nil =>
      intro s
      simp only [List.mapM_nil, pure, Except.pure, Except.ok.injEq, List.forall₂_nil_left_iff]
      exact eq_comm
    | cons v l ih =>
      intro s
      rw [List.mapM_cons]
      constructor
      · intro h
        obtain ⟨a, ha, h⟩ := Multi.bind_ok h
        obtain ⟨r, hr, h⟩ := Multi.bind_ok h
        simp only [pure, Except.pure, Except.ok.injEq] at h
        subst h
        exact .cons (decodeState_iff.mp ha) ((ih r).mp hr)
      · intro h
        cases h with
        | cons h1 h2 =>
          rw [decodeState_iff.mpr h1, (ih _).mpr h2]
          rfl
  constructor
  · intro h
    unfold decode at h
    split at h
    · rename_i m
      split at h
      · cases h
      · rename_i l hl
        obtain ⟨Dt, hD, h⟩ := Multi.bind_ok h
        obtain ⟨states, hS, h⟩ := Multi.bind_ok h
        obtain ⟨commands, hC, h⟩ := Multi.bind_ok h
        simp only [pure, Except.pure, Except.ok.injEq] at h
        subst h
        refine ⟨m, l, rfl, hl, (hmap _ _).mp hS, ?_, ?_⟩
        · unfold findOptionalDouble at hD
          simp only at hD
          split at hD
          · rename_i hn; cases hD; exact Or.inl ⟨hn, rfl⟩
          · rename_i hn; cases hD; exact Or.inr hn
          · cases hD
        · unfold commandsMember at hC
          split at hC
          · rename_i hn; cases hC; exact Or.inl ⟨Or.inl hn, rfl⟩
          · rename_i hn; cases hC; exact Or.inl ⟨Or.inr hn, rfl⟩
          · rename_i c hn; exact Or.inr ⟨c, hn, decodeCommands_iff.mp hC⟩
          · cases hC
      · cases h
    · cases h
  · rintro ⟨m, l, rfl, hl, hS, hD, hC⟩
    have hD' : findOptionalDouble "Dt" (.obj m) 0 = .ok y.Dt := by
      unfold findOptionalDouble
      rcases hD with ⟨h, h'⟩ | h
      · simp only [h, h']
      · simp only [h]
    have hC' : commandsMember m = .ok y.commands := by
      unfold commandsMember
      rcases hC with ⟨h | h, h'⟩ | ⟨c, h, h'⟩
      · simp only [h, h']
      · simp only [h, h']
      · simp only [h]; exact decodeCommands_iff.mpr h'
    unfold decode
    simp only [hl, hD', (hmap _ _).mpr hS, hC', bind, Except.bind, pure, Except.pure]

/-! ### C132: response of the model exchange server -/

theorem intercalate_length : ∀ ms : List (Member N), 4 * ms.length ≤ (List.intercalate (',' :: []) (ms.map Member.line)).length
  | [] => by simp
  | [m] => by simp [List.intercalate, Member.line]; omega
  | m :: m' :: ms => by
    have ih := intercalate_length (m' :: ms)
    have : List.intercalate (',' :: []) ((m :: m' :: ms).map Member.line) = m.line ++ (',' :: List.intercalate (',' :: []) ((m' :: ms).map Member.line)) := by
      simp [List.intercalate, List.intersperse]
    have hl : (m :: m' :: ms).length = (m' :: ms).length + 1 := rfl
    rw [this, List.length_append, hl, show ∀ l : List Char, (',' :: l).length = l.length + 1 from fun _ => rfl]
    have h4 : 4 ≤ m.line.length := by simp [Member.line]; omega
    omega

/-- **C132 (partial)** The response of the model exchange server is a JSON object with the thirteen derivatives, when they are finite. -/
theorem derivatives_response_partial {readNum : List Char → Option N} {sh : N → List Char} (hs : ∀ x, ShowsNum readNum sh x) (a0 a1 a2 a3 a4 a5 a6 a7 a8 a9 a10 a11 a12 : N) :
    ∃ text, derivativesText sh [.fin a0, .fin a1, .fin a2, .fin a3, .fin a4, .fin a5, .fin a6, .fin a7, .fin a8, .fin a9, .fin a10, .fin a11, .fin a12] = .ok text ∧
      parse readNum text = some (.obj [("dx_dt".toList, .num a0), ("dy_dt".toList, .num a1), ("dz_dt".toList, .num a2), ("du_dt".toList, .num a3), ("dv_dt".toList, .num a4), ("dw_dt".toList, .num a5), ("dp_dt".toList, .num a6), ("dq_dt".toList, .num a7), ("dr_dt".toList, .num a8), ("dqr_dt".toList, .num a9), ("dqi_dt".toList, .num a10), ("dqj_dt".toList, .num a11), ("dqk_dt".toList, .num a12)]) := by
  let ms : List (Member N) := [⟨"dx_dt".toList, sh a0, .num a0⟩, ⟨"dy_dt".toList, sh a1, .num a1⟩, ⟨"dz_dt".toList, sh a2, .num a2⟩, ⟨"du_dt".toList, sh a3, .num a3⟩, ⟨"dv_dt".toList, sh a4, .num a4⟩, ⟨"dw_dt".toList, sh a5, .num a5⟩, ⟨"dp_dt".toList, sh a6, .num a6⟩, ⟨"dq_dt".toList, sh a7, .num a7⟩, ⟨"dr_dt".toList, sh a8, .num a8⟩, ⟨"dqr_dt".toList, sh a9, .num a9⟩, ⟨"dqi_dt".toList, sh a10, .num a10⟩, ⟨"dqj_dt".toList, sh a11, .num a11⟩, ⟨"dqk_dt".toList, sh a12, .num a12⟩]
  refine ⟨'{' :: (List.intercalate (',' :: []) (ms.map Member.line) ++ ['}']), ?_, ?_⟩
  · have he : ∀ (k : String) (x : N), "\"".toList ++ k.toList ++ "\": ".toList ++ Dbl.text sh (.fin x) = Member.line ⟨k.toList, sh x, .num x⟩ := by
      intro k x; simp [Member.line, Dbl.text]
    simp only [derivativesText, getUB, List.getElem?_cons_zero, List.getElem?_cons_succ, bind, Except.bind, pure, Except.pure, he, ms, List.map_cons, List.map_nil]
    rfl
  · have hplain : ∀ k ∈ ms.map Member.key, ∀ c ∈ k, Plain c := by
      show ∀ k ∈ ["dx_dt".toList, "dy_dt".toList, "dz_dt".toList, "du_dt".toList, "dv_dt".toList, "dw_dt".toList, "dp_dt".toList, "dq_dt".toList, "dr_dt".toList, "dqr_dt".toList, "dqi_dt".toList, "dqj_dt".toList, "dqk_dt".toList], ∀ c ∈ k, Plain c
      decide
    have hr := reads_object (readNum := readNum) (f := 1) (sep := []) (by decide) ms (by
      intro m hm
      refine ⟨hplain _ (List.mem_map_of_mem hm), ?_⟩
      simp only [ms, List.mem_cons, List.not_mem_nil, or_false] at hm
      rcases hm with rfl | rfl | rfl | rfl | rfl | rfl | rfl | rfl | rfl | rfl | rfl | rfl | rfl <;> exact reads_num (hs _))
    refine parse_of_reads hr ?_
    have h1 : ms.length = 13 := rfl
    have h2 := intercalate_length ms
    rw [h1] at h2 ⊢
    rw [List.length_cons, List.length_append]
    omega

/-! ### C133: one answer per request -/

/-- **C133 (partial)** Each request gets exactly one answer, except when the evaluation ends with an exception of the mesh or of a websocket. -/
theorem one_answer_partial (result : Except (Exc × List Char) (List Char)) (h : ∀ message, result ≠ .error (.mesh, message) ∧ result ≠ .error (.websocket, message)) :
    ∃ text, respond result = [text] ∧ ∀ t, result = .ok t → text = t := by
  match result, h with
  | .ok t, _ => exact ⟨t, rfl, fun t' h => by cases h; rfl⟩
  | .error (e, message), h =>
    cases e with
    | mesh => exact absurd rfl (h message).1
    | websocket => exact absurd rfl (h message).2
    | _ => exact ⟨_, rfl, fun t h => by cases h⟩

/-- **C133, refuted** A client whose request makes an exception of the mesh (or of a websocket) never gets an answer. -/
theorem no_answer_refuted (message : List Char) : respond (.error (.mesh, message)) = [] ∧ respond (.error (.websocket, message)) = [] := ⟨rfl, rfl⟩

/-- **C133 (partial)** An error is reported as a JSON object `{"error": ...}` with the text of the error, on one line, when this text has no quote, no
backslash and no control character but line ends. -/
theorem error_is_json_partial (readNum : List Char → Option N) (what : List Char) (h : ∀ c ∈ what, Plain c ∨ c = '\n') :
    parse readNum (errorText what) = some (.obj [("error".toList, .str (what.map (fun c => if c = '\n' then ' ' else c)))]) := by
  have htext : errorText what = '{' :: (List.intercalate (',' :: []) ([(⟨"error".toList, '"' :: what.map (fun c => if c = '\n' then ' ' else c) ++ ['"'],
      .str (what.map (fun c => if c = '\n' then ' ' else c))⟩ : Member N)].map Member.line) ++ ['}']) := by
    have hA : ("{\"error\": \"".toList).map (fun c => if c = '\n' then ' ' else c) = '{' :: '"' :: "error".toList ++ ['"', ':', ' ', '"'] := by decide
    have hB : ("\"}".toList).map (fun c => if c = '\n' then ' ' else c) = ['"', '}'] := by decide
    unfold errorText
    rw [List.map_append, List.map_append, hA, hB]
    generalize what.map (fun c => if c = '\n' then ' ' else c) = w
    simp only [List.intercalate, Member.line, List.map_cons, List.map_nil, List.intersperse_single, List.flatten_cons, List.flatten_nil, List.append_nil,
      List.cons_append, List.append_assoc, List.nil_append, List.singleton_append]
  have hr := reads_object (readNum := readNum) (f := 1) (sep := []) (by decide)
    [(⟨"error".toList, '"' :: what.map (fun c => if c = '\n' then ' ' else c) ++ ['"'], .str (what.map (fun c => if c = '\n' then ' ' else c))⟩ : Member N)] (by
      intro m hm
      rw [List.mem_singleton] at hm
      subst hm
      refine ⟨by show ∀ c ∈ "error".toList, Plain c; decide, reads_string readNum ?_⟩
      intro c hc
      rw [List.mem_map] at hc
      obtain ⟨d, hd, rfl⟩ := hc
      by_cases hn : d = '\n'
      · rw [if_pos hn]; decide
      · rw [if_neg hn]; exact (h d hd).resolve_right hn)
  rw [htext]
  refine parse_of_reads hr ?_
  have := intercalate_length [(⟨"error".toList, '"' :: what.map (fun c => if c = '\n' then ' ' else c) ++ ['"'],
    .str (what.map (fun c => if c = '\n' then ' ' else c))⟩ : Member N)]
  have hl : ∀ q : List Char, ('{' :: (q ++ ['}'])).length = q.length + 2 := by intro q; simp
  rw [hl]
  simp only [List.length_cons, List.length_nil] at this ⊢
  omega

/-- **C133, refuted** A quote in the message makes the answer unreadable, for instance the message about the request `{"states": "a"}`. -/
theorem quoted_error_refuted :
    (respond (.error (.json, "Expecting a JSON array but got '\"a\"'".toList))).map (fun t => (parse readDigit t).isNone) = [true] := by decide +kernel

/-- The hypotheses of `error_is_json_partial` are met by the errors about the simulation. -/
example : ∃ what, report .numerical "Reached an infinite state".toList = some what ∧ ∀ c ∈ what, Plain c ∨ c = '\n' := ⟨_, rfl, by decide +kernel⟩

end Xdyn.JsonApi

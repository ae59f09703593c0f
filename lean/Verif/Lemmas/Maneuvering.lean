/-
Lemmas on the parser of maneuvering expressions: every text of the grammar is entirely read
(completeness) and what is read is a text of the grammar (soundness).
-/
import Mathlib.Tactic.Common
import Verif.Spec.Maneuvering

namespace Xdyn.Maneuvering
open Spec

/-! ### From the syntax tree to the expression -/

/-- the expression of an operator -/
def eOp (c : Char) (a b : E) : E :=
  if c = '-' then .sub a b
  else if c = '+' then .add a b
  else if c = '*' then .mul a b
  else if c = '/' then .div a b
  else if c = '^' then .pow a b
  else a

/-- the expression of one of the four operators looked for by the compiler -/
def eOp4 (c : Char) (a b : E) : E :=
  if c = '-' then .sub a b
  else if c = '+' then .add a b
  else if c = '*' then .mul a b
  else if c = '/' then .div a b
  else a

mutual
def absAtom : Atom → E
  | .num l => .num l
  | .ident n => .name n
  | .call f e => .call f (absExpr e)
def absBase : Base → E
  | .paren e => absExpr e
  | .atom a => absAtom a
def absExps : E → List Base → E
  | ret, [] => ret
  | ret, e :: l => absExps (.pow ret (absBase e)) l
def absFactor : Factor → E
  | .mk b l => absExps (absBase b) l
def absFactors : E → List (Char × Factor) → E
  | ret, [] => ret
  | ret, (c, f) :: l => absFactors (eOp4 c ret (absFactor f)) l
def absTerm : Term → E
  | .mk f l => absFactors (absFactor f) l
def absTerms : E → List (Char × Term) → E
  | ret, [] => ret
  | ret, (c, t) :: l => absTerms (eOp4 c ret (absTerm t)) l
def absExpr : Expr → E
  | .mk t l => absTerms (absTerm t) l
end

/-- left fold of operators -/
def foldE (a : E) (l : List (Char × E)) : E := l.foldl (fun a x => eOp x.1 a x.2) a

theorem absTerms_eq (a : E) (l : List (Char × Term)) (h : ∀ x ∈ l, isAdd x.1 = true) :
    absTerms a l = foldE a (l.map fun x => (x.1, absTerm x.2)) := by
  induction l generalizing a with
  | nil => simp [absTerms, foldE]
  | cons x l ih =>
    obtain ⟨c, t⟩ := x
    have hc : c = '+' ∨ c = '-' := by simpa [isAdd] using h (c, t) (by simp)
    simp only [absTerms]
    rw [ih _ (fun x hx => h x (by simp [hx]))]
    rcases hc with rfl | rfl <;> rfl

theorem absFactors_eq (a : E) (l : List (Char × Factor)) (h : ∀ x ∈ l, isMul x.1 = true) :
    absFactors a l = foldE a (l.map fun x => (x.1, absFactor x.2)) := by
  induction l generalizing a with
  | nil => simp [absFactors, foldE]
  | cons x l ih =>
    obtain ⟨c, t⟩ := x
    have hc : c = '*' ∨ c = '/' := by simpa [isMul] using h (c, t) (by simp)
    simp only [absFactors]
    rw [ih _ (fun x hx => h x (by simp [hx]))]
    rcases hc with rfl | rfl <;> rfl

theorem absExps_eq (a : E) (l : List (Char × Base)) (h : ∀ x ∈ l, x.1 = '^') :
    absExps a (l.map Prod.snd) = foldE a (l.map fun x => (x.1, absBase x.2)) := by
  induction l generalizing a with
  | nil => simp [absExps, foldE]
  | cons x l ih =>
    obtain ⟨c, t⟩ := x
    have hc : c = '^' := h (c, t) (by simp)
    subst hc
    simp only [List.map_cons, absExps]
    rw [ih _ (fun x hx => h x (by simp [hx]))]
    rfl

/-! ### Blanks -/

theorem isBlank_iff (c : Char) : isBlank c = true ↔ c = ' ' ∨ c = '\t' := by
  simp [isBlank]

theorem blanks_iff (b : Text) : Blanks b ↔ ∀ c ∈ b, isBlank c = true := by
  simp [Blanks, isBlank_iff]

theorem skip_blanks (b s : Text) (h : Blanks b) : skip (b ++ s) = skip s := by
  rw [blanks_iff] at h
  induction b with
  | nil => rfl
  | cons c b ih =>
    have hc : isBlank c = true := h c (by simp)
    simp only [skip, List.cons_append, List.dropWhile_cons, hc, if_true]
    exact ih (fun x hx => h x (by simp [hx]))

theorem skip_cons (c : Char) (s : Text) (h : isBlank c = false) : skip (c :: s) = c :: s := by
  simp [skip, List.dropWhile_cons, h]

theorem mem_takeWhile_pos {α : Type} (p : α → Bool) (l : List α) (c : α)
    (h : c ∈ l.takeWhile p) : p c = true := by
  induction l with
  | nil => simp at h
  | cons a l ih =>
    rw [List.takeWhile_cons] at h
    split at h
    · rcases List.mem_cons.mp h with rfl | h
      · assumption
      · exact ih h
    · simp at h

theorem skip_split (s : Text) : ∃ b, Blanks b ∧ s = b ++ skip s := by
  refine ⟨s.takeWhile isBlank, ?_, ?_⟩
  · rw [blanks_iff]; intro c hc; exact mem_takeWhile_pos _ _ c hc
  · simp [skip, List.takeWhile_append_dropWhile]

theorem skip_skip (s : Text) : skip (skip s) = skip s := by
  obtain ⟨b, hb, h⟩ := skip_split s
  conv_rhs => rw [h, skip_blanks _ _ hb]

theorem skip_head (s : Text) (c : Char) (r : Text) (h : skip s = c :: r) : isBlank c = false := by
  have := List.head?_dropWhile_not isBlank s
  simp only [skip] at h
  rw [h] at this
  simpa using this

theorem skip_length (s : Text) : (skip s).length ≤ s.length := by
  obtain ⟨b, _, h⟩ := skip_split s
  have := congrArg List.length h
  simp at this; omega

/-- what follows begins with one of `cs`, or there is nothing left -/
def Stop (cs : List Char) (rest : Text) : Prop :=
  skip rest = [] ∨ ∃ c r, skip rest = c :: r ∧ c ∈ cs

theorem Stop.mono {cs cs' : List Char} (h : cs ⊆ cs') {rest : Text} (hs : Stop cs rest) :
    Stop cs' rest := by
  rcases hs with h0 | ⟨c, r, h1, h2⟩
  · exact .inl h0
  · exact .inr ⟨c, r, h1, h h2⟩

theorem Stop.congr {cs : List Char} {a b : Text} (h : skip a = skip b) (hs : Stop cs b) :
    Stop cs a := by
  unfold Stop at *; rw [h]; exact hs

theorem Stop.cons {cs : List Char} (b : Text) (c : Char) (r : Text) (hb : Blanks b)
    (hc : isBlank c = false) (hm : c ∈ cs) : Stop cs (b ++ c :: r) := by
  right
  refine ⟨c, r, ?_, hm⟩
  rw [skip_blanks _ _ hb, skip_cons _ _ hc]

/-- a parser reads the text `s` as `e` whenever what follows is acceptable -/
def Reads {α : Type} (p : Parser α) (abs : α → E) (cs : List Char) (s : Text) (e : E) : Prop :=
  ∀ rest, Stop cs rest → ∃ a r, p (s ++ rest) = some (a, r) ∧ skip r = skip rest ∧ abs a = e

/-! ### Chains -/

/-- an operand preceded by blanks and an operator -/
structure Link where
  b : Text
  c : Char
  s : Text
  e : E

def flat : List Link → Text
  | [] => []
  | x :: l => x.b ++ x.c :: (x.s ++ flat l)

theorem flat_append (l m : List Link) : flat (l ++ m) = flat l ++ flat m := by
  induction l with
  | nil => rfl
  | cons x l ih => simp [flat, ih]

theorem flat_length (l : List Link) : l.length ≤ (flat l).length := by
  induction l with
  | nil => simp [flat]
  | cons x l ih => simp [flat]; omega

/-- the links of a chain are readable -/
def LinksOk {α : Type} (p : Parser α) (abs : α → E) (ok : Char → Bool) (cs : List Char)
    (l : List Link) : Prop :=
  ∀ x ∈ l, Blanks x.b ∧ ok x.c = true ∧ isBlank x.c = false ∧ Reads p abs cs x.s x.e

theorem opP_of_skip (ok : Char → Bool) (s : Text) (c : Char) (r : Text) (h : skip s = c :: r)
    (hok : ok c = true) : opP ok s = some (c, r) := by
  simp [opP, h, hok]

theorem opP_stop (ok : Char → Bool) (cs : List Char) (s : Text) (h : Stop cs s)
    (hok : ∀ c ∈ cs, ok c = false) : opP ok s = none := by
  rcases h with h | ⟨c, r, h, hm⟩
  · simp [opP, h]
  · simp [opP, h, hok c hm]

theorem star_reads {α : Type} (p : Parser α) (abs : α → E) (ok : Char → Bool)
    (cs stops : List Char) (hcs : stops ⊆ cs) (hok : ∀ c, ok c = true → c ∈ cs)
    (hstop : ∀ c ∈ stops, ok c = false) :
    ∀ (l : List Link) (n : Nat) (r0 rest : Text), LinksOk p abs ok cs l → Stop stops rest →
      skip r0 = skip (flat l ++ rest) → l.length ≤ n →
      ∃ xs r, star (opAnd ok p) n r0 = (xs, r) ∧ skip r = skip rest ∧
        (xs.map fun x => (x.1, abs x.2)) = l.map fun x => (x.c, x.e) := by
  intro l
  induction l with
  | nil =>
    intro n r0 rest _ hs hr _
    have hr' : skip r0 = skip rest := by simpa [flat] using hr
    refine ⟨[], r0, ?_, hr', rfl⟩
    cases n with
    | zero => rfl
    | succ n =>
      simp only [star, opAnd, opP_stop ok stops r0 (hs.congr hr') hstop]
  | cons x l ih =>
    intro n r0 rest hl hs hr hn
    obtain ⟨hb, hokx, hblank, hread⟩ := hl x (by simp)
    cases n with
    | zero => simp at hn
    | succ n =>
      have h1 : skip r0 = x.c :: (x.s ++ (flat l ++ rest)) := by
        rw [hr]
        simp only [flat, List.append_assoc, List.cons_append]
        rw [skip_blanks _ _ hb, skip_cons _ _ hblank]
      have h2 := opP_of_skip ok r0 x.c _ h1 hokx
      have hst : Stop cs (flat l ++ rest) := by
        cases l with
        | nil => simpa [flat] using hs.mono hcs
        | cons y l =>
          obtain ⟨hb', hok', hbl', _⟩ := hl y (by simp)
          simp only [flat, List.append_assoc, List.cons_append]
          exact Stop.cons _ _ _ hb' hbl' (hok _ hok')
      obtain ⟨a, r, ha, hr', habs⟩ := hread _ hst
      obtain ⟨xs, r'', hxs, hrr, hmap⟩ := ih n r rest (fun y hy => hl y (by simp [hy])) hs hr'
        (by simpa using hn)
      refine ⟨(x.c, a) :: xs, r'', ?_, hrr, ?_⟩
      · simp only [star, opAnd, h2, ha, hxs]
      · simp [hmap, habs]

/-- a chain is read -/
theorem chain_reads {α β : Type} (mk : α → List (Char × α) → β) (p : Parser α) (abs : α → E)
    (absB : β → E) (ok : Char → Bool) (cs stops : List Char) (hcs : stops ⊆ cs)
    (hok : ∀ c, ok c = true → c ∈ cs) (hstop : ∀ c ∈ stops, ok c = false)
    (hmk : ∀ a l, (∀ x ∈ l, ok x.1 = true) →
      absB (mk a l) = foldE (abs a) (l.map fun x => (x.1, abs x.2)))
    (s0 : Text) (e0 : E) (l : List Link) (h0 : Reads p abs cs s0 e0)
    (hl : LinksOk p abs ok cs l) :
    Reads (chainP mk ok p) absB stops (s0 ++ flat l)
      (foldE e0 (l.map fun x => (x.c, x.e))) := by
  intro rest hs
  have hst : Stop cs (flat l ++ rest) := by
    cases l with
    | nil => simpa [flat] using hs.mono hcs
    | cons y l =>
      obtain ⟨hb', hok', hbl', _⟩ := hl y (by simp)
      simp only [flat, List.append_assoc, List.cons_append]
      exact Stop.cons _ _ _ hb' hbl' (hok _ hok')
  obtain ⟨a, r, ha, hr, habs⟩ := h0 _ hst
  have hlen : l.length ≤ r.length := by
    cases l with
    | nil => simp
    | cons y l =>
      obtain ⟨hb', _, hbl', _⟩ := hl y (by simp)
      have h1 := skip_length r
      rw [hr] at h1
      simp only [flat, List.append_assoc, List.cons_append] at h1
      rw [skip_blanks _ _ hb', skip_cons _ _ hbl'] at h1
      have := flat_length l
      simp at h1 ⊢
      omega
  obtain ⟨xs, r', hxs, hr', hmap⟩ := star_reads p abs ok cs stops hcs hok hstop l r.length r rest
    hl hs hr hlen
  refine ⟨mk a xs, r', ?_, hr', ?_⟩
  · simp only [chainP, List.append_assoc, ha, hxs]
  · rw [hmk, hmap, habs]
    intro x hx
    have : (x.1, abs x.2) ∈ l.map fun x => (x.c, x.e) := by
      rw [← hmap]; exact List.mem_map_of_mem hx
    obtain ⟨y, hy, hxy⟩ := List.mem_map.mp this
    have h3 := (hl y hy).2.1
    simp only [Prod.mk.injEq] at hxy
    rw [← hxy.1]; exact h3

/-! ### Identifiers and literals -/

theorem alpha_not_blank (c : Char) (h : c.isAlpha = true) : isBlank c = false := by
  by_contra hb
  rw [Bool.not_eq_false, isBlank_iff] at hb
  rcases hb with rfl | rfl <;> revert h <;> decide

theorem identChar_not_blank (c : Char) (h : isIdentChar c = true) : isBlank c = false := by
  by_contra hb
  rw [Bool.not_eq_false, isBlank_iff] at hb
  rcases hb with rfl | rfl <;> revert h <;> decide

theorem identTail_reads (s rest : Text)
    (hs : ∀ x ∈ s, x.isAlphanum = true ∨ x = '_' ∨ x = ' ' ∨ x = '\t')
    (hrest : skip rest = [] ∨ ∃ c r, skip rest = c :: r ∧ isIdentChar c = false) :
    (identTail (s ++ rest)).1 = s.filter (fun x => !(x == ' ' || x == '\t')) ∧
    (identTail (s ++ rest)).2 = skip rest := by
  induction s with
  | nil =>
    simp only [List.nil_append, List.filter_nil]
    obtain ⟨b, hb, hsp⟩ := skip_split rest
    have key : ∀ b : Text, Blanks b → ∀ t, identTail (b ++ t) = identTail t := by
      intro b hb t
      rw [blanks_iff] at hb
      induction b with
      | nil => rfl
      | cons c b ih =>
        simp only [List.cons_append, identTail, hb c (by simp), if_true]
        exact ih (fun x hx => hb x (by simp [hx]))
    rw [hsp, key b hb, skip_blanks _ _ hb, skip_skip]
    rcases hrest with h | ⟨c, r, h, hc⟩
    · rw [h]; simp [identTail]
    · have hbl := skip_head _ _ _ h
      rw [h]; simp [identTail, hbl, hc]
  | cons c s ih =>
    have ih' := ih (fun x hx => hs x (by simp [hx]))
    by_cases hb : isBlank c = true
    · have hb' : (c == ' ' || c == '\t') = true := hb
      simp only [List.cons_append, identTail, hb, if_true, List.filter_cons, hb', Bool.not_true,
        Bool.false_eq_true, if_false]
      exact ih'
    · have hid : isIdentChar c = true := by
        rcases hs c (by simp) with h | h | h | h
        · simp [isIdentChar, h]
        · simp [isIdentChar, h]
        · exact absurd ((isBlank_iff c).2 (.inl h)) hb
        · exact absurd ((isBlank_iff c).2 (.inr h)) hb
      have hb' : (c == ' ' || c == '\t') = false := by simpa [isBlank] using hb
      simp only [List.cons_append, identTail, hb, hid, if_true, List.filter_cons, hb',
        Bool.not_false, Bool.false_eq_true, if_false]
      exact ⟨by rw [ih'.1], ih'.2⟩

theorem identP_reads (b s n rest : Text) (hb : Blanks b) (hn : Identifier s n)
    (hrest : skip rest = [] ∨ ∃ c r, skip rest = c :: r ∧ isIdentChar c = false) :
    identP (b ++ s ++ rest) = some (n, skip rest) := by
  obtain ⟨c, s, hc, hs⟩ := hn
  have h1 : skip (b ++ (c :: s) ++ rest) = c :: (s ++ rest) := by
    rw [List.append_assoc, skip_blanks _ _ hb, List.cons_append,
      skip_cons _ _ (alpha_not_blank c hc)]
  obtain ⟨h2, h3⟩ := identTail_reads s rest hs hrest
  simp only [identP, h1, hc, if_true, h2, h3]

theorem takeWhile_digits (n rest : Text) (hn : Digits n)
    (hr : ∀ c r, rest = c :: r → c.isDigit = false) :
    (n ++ rest).takeWhile Char.isDigit = n ∧ (n ++ rest).dropWhile Char.isDigit = rest := by
  have h0 : rest.takeWhile Char.isDigit = [] ∧ rest.dropWhile Char.isDigit = rest := by
    cases rest with
    | nil => simp
    | cons c r => simp [List.takeWhile_cons, List.dropWhile_cons, hr c r rfl]
  constructor
  · rw [List.takeWhile_append_of_pos hn, h0.1, List.append_nil]
  · rw [List.dropWhile_append_of_pos hn, h0.2]

theorem signP_reads (sg rest : Text) (hs : Sign sg)
    (hr : ∀ c r, rest = c :: r → c ≠ '+' ∧ c ≠ '-') : signP (sg ++ rest) = (sg, rest) := by
  rcases hs with rfl | rfl | rfl
  · cases rest with
    | nil => rfl
    | cons c r => simp [signP, (hr c r rfl).1, (hr c r rfl).2]
  · simp [signP]
  · simp [signP]

theorem digit_ne (c : Char) (h : c.isDigit = true) : c ≠ '+' ∧ c ≠ '-' ∧ c ≠ '.' ∧ c ≠ 'e' ∧
    c ≠ 'E' ∧ c ≠ '(' ∧ isBlank c = false ∧ c.isAlpha = false := by
  have hb : isBlank c = false := by
    by_contra hb
    rw [Bool.not_eq_false, isBlank_iff] at hb
    rcases hb with rfl | rfl <;> revert h <;> decide
  have ha : c.isAlpha = false := by
    simp only [Char.isDigit, Char.isAlpha, Char.isUpper, Char.isLower, Bool.and_eq_true,
      Bool.or_eq_false_iff, Bool.and_eq_false_iff, decide_eq_true_eq, decide_eq_false_iff_not,
      ge_iff_le, UInt32.le_iff_toNat_le] at h ⊢
    have h9 : '9'.val.toNat = 57 := rfl
    have hA : 'A'.val.toNat = 65 := rfl
    have ha : 'a'.val.toNat = 97 := rfl
    omega
  refine ⟨?_, ?_, ?_, ?_, ?_, ?_, hb, ha⟩ <;> (rintro rfl; revert h; decide)

theorem expP_reads (e rest : Text) (he : Exponent e)
    (hr : ∀ c r, rest = c :: r → c.isDigit = false ∧ c ≠ 'e' ∧ c ≠ 'E') :
    expP (e ++ rest) = (e, rest) := by
  rcases he with _ | ⟨c, sg, n, hc, hsg, hn, hn0⟩
  · cases rest with
    | nil => rfl
    | cons c r => simp [expP, (hr c r rfl).2.1, (hr c r rfl).2.2]
  · have h1 : signP (sg ++ n ++ rest) = (sg, n ++ rest) := by
      rw [List.append_assoc]
      refine signP_reads sg _ hsg ?_
      intro c' r' h
      cases n with
      | nil => exact absurd rfl hn0
      | cons d n =>
        simp only [List.cons_append, List.cons.injEq] at h
        have := digit_ne d (hn d (by simp))
        rw [← h.1]; exact ⟨this.1, this.2.1⟩
    obtain ⟨h2, h3⟩ := takeWhile_digits n rest hn (fun c r h => (hr c r h).1)
    simp only [List.cons_append, expP, hc, if_true, h1, h2, h3, hn0, if_false]

theorem mantP_reads (m rest : Text) (hm : Mantissa m)
    (hr : ∀ c r, rest = c :: r → c.isDigit = false ∧ c ≠ '.') :
    mantP (m ++ rest) = some (m, rest) := by
  rcases hm with ⟨_, hn, hn0⟩ | ⟨n, f, hn, hf, hnf⟩
  · obtain ⟨h2, h3⟩ := takeWhile_digits m rest hn (fun c r h => (hr c r h).1)
    simp only [mantP, h2, h3]
    cases rest with
    | nil => simp [hn0]
    | cons c r => simp [hn0, (hr c r rfl).2]
  · have hd : ∀ (c : Char) (r : Text), '.' :: (f ++ rest) = c :: r → c.isDigit = false := by
      intro c r h
      simp only [List.cons.injEq] at h
      rw [← h.1]; decide
    obtain ⟨h2, h3⟩ := takeWhile_digits n ('.' :: (f ++ rest)) hn hd
    obtain ⟨h4, h5⟩ := takeWhile_digits f rest hf (fun c r h => (hr c r h).1)
    have h6 : ¬ (n = [] ∧ f = []) := by
      rintro ⟨rfl, rfl⟩; exact hnf rfl
    simp only [mantP, List.append_assoc, List.cons_append, h2, h3, if_true, h4, h5, if_neg h6]

theorem exponent_head (e rest : Text) (he : Exponent e)
    (hr : ∀ c r, rest = c :: r → c.isDigit = false ∧ c ≠ '.') :
    ∀ c r, e ++ rest = c :: r → c.isDigit = false ∧ c ≠ '.' := by
  intro c r h
  rcases he with _ | ⟨c', sg, n, hc, _⟩
  · exact hr c r h
  · simp only [List.cons_append, List.cons.injEq] at h
    rw [← h.1]
    rcases hc with rfl | rfl <;> exact ⟨by decide, by decide⟩

theorem numLit_reads (l rest : Text) (hl : Literal l)
    (hr : ∀ c r, rest = c :: r → c.isDigit = false ∧ c ≠ '.' ∧ c ≠ 'e' ∧ c ≠ 'E') :
    numLit (l ++ rest) = some (l, rest) := by
  obtain ⟨sg, m, e, hsg, hm, he⟩ := hl
  have h1 : signP (sg ++ (m ++ (e ++ rest))) = (sg, m ++ (e ++ rest)) := by
    refine signP_reads _ _ hsg ?_
    intro c r h
    rcases hm with ⟨_, hn, hn0⟩ | ⟨n, f, hn, hf, hnf⟩
    · cases m with
      | nil => exact absurd rfl hn0
      | cons d m =>
        simp only [List.cons_append, List.cons.injEq] at h
        have := digit_ne d (hn d (by simp))
        rw [← h.1]; exact ⟨this.1, this.2.1⟩
    · cases n with
      | nil =>
        simp only [List.nil_append, List.cons_append, List.cons.injEq] at h
        rw [← h.1]; exact ⟨by decide, by decide⟩
      | cons d n =>
        simp only [List.cons_append, List.cons.injEq] at h
        have := digit_ne d (hn d (by simp))
        rw [← h.1]; exact ⟨this.1, this.2.1⟩
  have h2 := mantP_reads m (e ++ rest) hm
    (exponent_head e rest he (fun c r h => ⟨(hr c r h).1, (hr c r h).2.1⟩))
  have h3 := expP_reads e rest he (fun c r h => ⟨(hr c r h).1, (hr c r h).2.2⟩)
  simp only [numLit, List.append_assoc, h1, h2, h3]

/-- a literal begins with a sign, a dot or a digit -/
theorem literal_head (l : Text) (hl : Literal l) :
    ∃ c r, l = c :: r ∧ isBlank c = false ∧ c ≠ '(' ∧ c.isAlpha = false := by
  obtain ⟨sg, m, e, hsg, hm, he⟩ := hl
  have hmm : ∃ c r, m = c :: r ∧ isBlank c = false ∧ c ≠ '(' ∧ c.isAlpha = false := by
    rcases hm with ⟨_, hn, hn0⟩ | ⟨n, f, hn, hf, hnf⟩
    · cases m with
      | nil => exact absurd rfl hn0
      | cons d m =>
        have := digit_ne d (hn d (by simp))
        exact ⟨d, m, rfl, this.2.2.2.2.2.2.1, this.2.2.2.2.2.1, this.2.2.2.2.2.2.2⟩
    · cases n with
      | nil => exact ⟨'.', f, rfl, by decide, by decide, by decide⟩
      | cons d n =>
        have := digit_ne d (hn d (by simp))
        exact ⟨d, n ++ '.' :: f, rfl, this.2.2.2.2.2.2.1, this.2.2.2.2.2.1, this.2.2.2.2.2.2.2⟩
  obtain ⟨c, r, rfl, h1, h2, h3⟩ := hmm
  rcases hsg with rfl | rfl | rfl
  · exact ⟨c, r ++ e, rfl, h1, h2, h3⟩
  · exact ⟨'+', c :: r ++ e, rfl, by decide, by decide, by decide⟩
  · exact ⟨'-', c :: r ++ e, rfl, by decide, by decide, by decide⟩

/-! ### The parser reads every text of the grammar -/

def cBase : List Char := ['+', '-', '*', '/', '^', ')']
def cPow : List Char := ['+', '-', '*', '/', ')']
def cProd : List Char := ['+', '-', ')']
def cSum : List Char := [')']

/-- what is known of a text of each level: bases are read directly, the other levels are chains -/
def Motive : Level → Text → E → Prop
  | .base, s, e => ∀ d, s.length ≤ d → Reads (baseP (exprP d)) absBase cBase s e
  | .power, s, e => ∀ d, s.length ≤ d → ∃ s0 e0 l, s = s0 ++ flat l ∧
      Reads (baseP (exprP d)) absBase cBase s0 e0 ∧
      LinksOk (baseP (exprP d)) absBase isHat cBase l ∧
      e = foldE e0 (l.map fun x => (x.c, x.e))
  | .product, s, e => ∀ d, s.length ≤ d → ∃ s0 e0 l, s = s0 ++ flat l ∧
      Reads (factorP (exprP d)) absFactor cPow s0 e0 ∧
      LinksOk (factorP (exprP d)) absFactor isMul cPow l ∧
      e = foldE e0 (l.map fun x => (x.c, x.e))
  | .sum, s, e => ∀ d, s.length ≤ d → ∃ s0 e0 l, s = s0 ++ flat l ∧
      Reads (termP (exprP d)) absTerm cProd s0 e0 ∧
      LinksOk (termP (exprP d)) absTerm isAdd cProd l ∧
      e = foldE e0 (l.map fun x => (x.c, x.e))

theorem factor_of_motive (s : Text) (e : E) (h : Motive .power s e) (d : Nat)
    (hd : s.length ≤ d) : Reads (factorP (exprP d)) absFactor cPow s e := by
  obtain ⟨s0, e0, l, rfl, h0, hl, rfl⟩ := h d hd
  refine chain_reads _ _ absBase absFactor isHat cBase cPow (by decide) ?_ (by decide) ?_ s0 e0 l
    h0 hl
  · intro c hc
    have : c = '^' := by simpa [isHat] using hc
    subst this; decide
  · intro a l hl
    simp only [absFactor]
    exact absExps_eq _ _ (fun x hx => by simpa [isHat] using hl x hx)

theorem term_of_motive (s : Text) (e : E) (h : Motive .product s e) (d : Nat)
    (hd : s.length ≤ d) : Reads (termP (exprP d)) absTerm cProd s e := by
  obtain ⟨s0, e0, l, rfl, h0, hl, rfl⟩ := h d hd
  refine chain_reads _ _ absFactor absTerm isMul cPow cProd (by decide) ?_ (by decide) ?_ s0 e0 l
    h0 hl
  · intro c hc
    have : c = '*' ∨ c = '/' := by simpa [isMul] using hc
    rcases this with rfl | rfl <;> decide
  · intro a l hl
    simp only [absTerm, absFactors_eq _ _ hl]

theorem expr_of_motive (s : Text) (e : E) (h : Motive .sum s e) (d : Nat)
    (hd : s.length ≤ d) : Reads (exprP (d + 1)) absExpr cSum s e := by
  obtain ⟨s0, e0, l, rfl, h0, hl, rfl⟩ := h d hd
  refine chain_reads _ _ absTerm absExpr isAdd cProd cSum (by decide) ?_ (by decide) ?_ s0 e0 l
    h0 hl
  · intro c hc
    have : c = '+' ∨ c = '-' := by simpa [isAdd] using hc
    rcases this with rfl | rfl <;> decide
  · intro a l hl
    simp only [absExpr, absTerms_eq _ _ hl]

theorem linksOk_snoc {α : Type} {p : Parser α} {abs : α → E} {ok : Char → Bool} {cs : List Char}
    {l : List Link} (h : LinksOk p abs ok cs l) (x : Link)
    (hx : Blanks x.b ∧ ok x.c = true ∧ isBlank x.c = false ∧ Reads p abs cs x.s x.e) :
    LinksOk p abs ok cs (l ++ [x]) := by
  intro y hy
  rcases List.mem_append.mp hy with hy | hy
  · exact h y hy
  · rw [List.mem_singleton.mp hy]; exact hx

theorem foldE_snoc (e0 : E) (l : List Link) (x : Link) :
    foldE e0 ((l ++ [x]).map fun x => (x.c, x.e)) =
      eOp x.c (foldE e0 (l.map fun x => (x.c, x.e))) x.e := by
  simp [foldE]

theorem parenP_reads (d : Nat) (b s b' rest : Text) (e : E) (hb : Blanks b) (hb' : Blanks b')
    (h : Motive .sum s e) (hd : s.length + 1 ≤ d) :
    ∃ x, parenP (exprP d) (b ++ '(' :: (s ++ b' ++ [')']) ++ rest) = some (x, rest) ∧
      absExpr x = e := by
  obtain ⟨d, rfl⟩ : ∃ d', d = d' + 1 := ⟨d - 1, by omega⟩
  have hst : Stop cSum (b' ++ ')' :: rest) := Stop.cons _ _ _ hb' (by decide) (by decide)
  obtain ⟨x, r, hx, hr, habs⟩ := expr_of_motive s e h d (by omega) _ hst
  have h1 : lit1 '(' (b ++ '(' :: (s ++ (b' ++ ')' :: rest))) = some (s ++ (b' ++ ')' :: rest)) := by
    simp only [lit1, skip_blanks _ _ hb, skip_cons '(' _ (by decide), if_true]
  have h2 : lit1 ')' r = some rest := by
    simp only [lit1, hr, skip_blanks _ _ hb', skip_cons ')' _ (by decide), if_true]
  refine ⟨x, ?_, habs⟩
  have h3 : b ++ '(' :: (s ++ b' ++ [')']) ++ rest = b ++ '(' :: (s ++ (b' ++ ')' :: rest)) := by
    simp
  rw [h3]
  simp only [parenP, h1, hx, h2]

theorem parenP_none (e : Parser Expr) (s : Text)
    (h : skip s = [] ∨ ∃ c r, skip s = c :: r ∧ c ≠ '(') : parenP e s = none := by
  rcases h with h | ⟨c, r, h, hc⟩
  · simp [parenP, lit1, h]
  · simp [parenP, lit1, h, hc]

theorem stop_notIdent (rest : Text) (h : Stop cBase rest) :
    (skip rest = [] ∨ ∃ c r, skip rest = c :: r ∧ isIdentChar c = false) ∧
    (skip rest = [] ∨ ∃ c r, skip rest = c :: r ∧ c ≠ '(') := by
  have key : ∀ c ∈ cBase, isIdentChar c = false ∧ c ≠ '(' := by decide
  rcases h with h | ⟨c, r, h, hm⟩
  · exact ⟨.inl h, .inl h⟩
  · exact ⟨.inr ⟨c, r, h, (key c hm).1⟩, .inr ⟨c, r, h, (key c hm).2⟩⟩

theorem stop_notNum (rest : Text) (h : Stop cBase rest) :
    ∀ c r, rest = c :: r → c.isDigit = false ∧ c ≠ '.' ∧ c ≠ 'e' ∧ c ≠ 'E' := by
  intro c r hc
  have key : ∀ c ∈ cBase, c.isDigit = false ∧ c ≠ '.' ∧ c ≠ 'e' ∧ c ≠ 'E' := by decide
  by_cases hb : isBlank c = true
  · rcases (isBlank_iff c).1 hb with rfl | rfl <;> decide
  · have h1 : skip rest = c :: r := by
      rw [hc]; exact skip_cons _ _ (by simpa using hb)
    rcases h with h | ⟨c', r', h, hm⟩
    · rw [h1] at h; cases h
    · rw [h1] at h
      simp only [List.cons.injEq] at h
      rw [h.1]; exact key c' hm

/-- every text of the grammar is read, whatever its level -/
theorem motive_of_writes (lv : Level) (s : Text) (e : E) (h : Writes lv s e) : Motive lv s e := by
  induction h with
  | product _ ih =>
    rename_i s e _
    intro d hd
    exact ⟨s, e, [], by simp [flat], term_of_motive s e ih d hd, (by intro x hx; cases hx), rfl⟩
  | power _ ih =>
    rename_i s e _
    intro d hd
    exact ⟨s, e, [], by simp [flat], factor_of_motive s e ih d hd, (by intro x hx; cases hx), rfl⟩
  | base _ ih =>
    rename_i s e _
    intro d hd
    exact ⟨s, e, [], by simp [flat], ih d hd, (by intro x hx; cases hx), rfl⟩
  | add _ hb _ ih ih' =>
    rename_i s a b s' e _ _
    intro d hd
    simp only [List.length_append, List.length_cons] at hd
    obtain ⟨s0, e0, l, rfl, h0, hl, rfl⟩ := ih d (by omega)
    refine ⟨s0, e0, l ++ [⟨b, '+', s', e⟩], by simp [flat_append, flat], h0,
      linksOk_snoc hl _ ⟨hb, rfl, rfl, term_of_motive _ _ ih' d (by omega)⟩, ?_⟩
    rw [foldE_snoc]; rfl
  | sub _ hb _ ih ih' =>
    rename_i s a b s' e _ _
    intro d hd
    simp only [List.length_append, List.length_cons] at hd
    obtain ⟨s0, e0, l, rfl, h0, hl, rfl⟩ := ih d (by omega)
    refine ⟨s0, e0, l ++ [⟨b, '-', s', e⟩], by simp [flat_append, flat], h0,
      linksOk_snoc hl _ ⟨hb, rfl, rfl, term_of_motive _ _ ih' d (by omega)⟩, ?_⟩
    rw [foldE_snoc]; rfl
  | mul _ hb _ ih ih' =>
    rename_i s a b s' e _ _
    intro d hd
    simp only [List.length_append, List.length_cons] at hd
    obtain ⟨s0, e0, l, rfl, h0, hl, rfl⟩ := ih d (by omega)
    refine ⟨s0, e0, l ++ [⟨b, '*', s', e⟩], by simp [flat_append, flat], h0,
      linksOk_snoc hl _ ⟨hb, rfl, rfl, factor_of_motive _ _ ih' d (by omega)⟩, ?_⟩
    rw [foldE_snoc]; rfl
  | div _ hb _ ih ih' =>
    rename_i s a b s' e _ _
    intro d hd
    simp only [List.length_append, List.length_cons] at hd
    obtain ⟨s0, e0, l, rfl, h0, hl, rfl⟩ := ih d (by omega)
    refine ⟨s0, e0, l ++ [⟨b, '/', s', e⟩], by simp [flat_append, flat], h0,
      linksOk_snoc hl _ ⟨hb, rfl, rfl, factor_of_motive _ _ ih' d (by omega)⟩, ?_⟩
    rw [foldE_snoc]; rfl
  | pow _ hb _ ih ih' =>
    rename_i s a b s' e _ _
    intro d hd
    simp only [List.length_append, List.length_cons] at hd
    obtain ⟨s0, e0, l, rfl, h0, hl, rfl⟩ := ih d (by omega)
    refine ⟨s0, e0, l ++ [⟨b, '^', s', e⟩], by simp [flat_append, flat], h0,
      linksOk_snoc hl _ ⟨hb, rfl, rfl, ih' d (by omega)⟩, ?_⟩
    rw [foldE_snoc]; rfl
  | paren hb _ hb' ih =>
    rename_i b s e b' _
    intro d hd rest _
    simp only [List.length_append, List.length_cons, List.length_nil] at hd
    obtain ⟨x, hx, habs⟩ := parenP_reads d b s b' rest e hb hb' ih (by omega)
    exact ⟨.paren x, rest, by simp only [baseP, hx], rfl, by simpa [absBase] using habs⟩
  | num hb hl =>
    rename_i b l
    intro d _ rest hrest
    obtain ⟨c, r, hcr, hbl, hpar, halpha⟩ := literal_head l hl
    have h1 : skip (b ++ l ++ rest) = l ++ rest := by
      rw [List.append_assoc, skip_blanks _ _ hb, hcr, List.cons_append, skip_cons _ _ hbl]
    have h2 : skip (b ++ l ++ rest) = c :: (r ++ rest) := by rw [h1, hcr]; rfl
    have h3 := parenP_none (exprP d) _ (.inr ⟨c, r ++ rest, h2, hpar⟩)
    have h4 : identP (b ++ l ++ rest) = none := by
      simp only [identP, h2, halpha, Bool.false_eq_true, if_false]
    have h5 := numLit_reads l rest hl (stop_notNum rest hrest)
    refine ⟨.atom (.num l), rest, ?_, rfl, by simp [absBase, absAtom]⟩
    simp only [baseP, h3, atomP, callP, h4, h1, h5]
  | name hb hn =>
    rename_i b s n
    intro d _ rest hrest
    obtain ⟨hr1, hr2⟩ := stop_notIdent rest hrest
    have h1 := identP_reads b s n rest hb hn hr1
    have h2 : parenP (exprP d) (skip rest) = none := parenP_none _ _ (by rwa [skip_skip])
    have h3 : parenP (exprP d) (b ++ s ++ rest) = none := by
      apply parenP_none
      obtain ⟨c, s, hc, _⟩ := hn
      right
      refine ⟨c, s ++ rest, ?_, ?_⟩
      · rw [List.append_assoc, skip_blanks _ _ hb, List.cons_append,
          skip_cons _ _ (alpha_not_blank c hc)]
      · rintro rfl; revert hc; decide
    refine ⟨.atom (.ident n), skip rest, ?_, skip_skip _, by simp [absBase, absAtom]⟩
    simp only [baseP, h3, atomP, callP, h1, h2]
  | call hb hn hb' _ hb'' ih =>
    rename_i b s f b' s' e b'' _
    intro d hd rest _
    simp only [List.length_append, List.length_cons, List.length_nil] at hd
    have h0 : b ++ s ++ b' ++ '(' :: (s' ++ b'' ++ [')']) ++ rest =
        b ++ s ++ (b' ++ '(' :: (s' ++ b'' ++ [')']) ++ rest) := by simp
    have hsk : skip (b' ++ '(' :: (s' ++ b'' ++ [')']) ++ rest) =
        '(' :: (s' ++ b'' ++ [')'] ++ rest) := by
      rw [List.append_assoc, skip_blanks _ _ hb', List.cons_append, skip_cons _ _ (by decide)]
    have h1 := identP_reads b s f (b' ++ '(' :: (s' ++ b'' ++ [')']) ++ rest) hb hn
      (.inr ⟨'(', _, hsk, by decide⟩)
    obtain ⟨x, hx, habs⟩ := parenP_reads d [] s' b'' rest e (by intro c hc; cases hc) hb'' ih
      (by omega)
    have h2 : parenP (exprP d) (skip (b' ++ '(' :: (s' ++ b'' ++ [')']) ++ rest)) =
        some (x, rest) := by rw [hsk]; exact hx
    have h3 : parenP (exprP d) (b ++ s ++ (b' ++ '(' :: (s' ++ b'' ++ [')']) ++ rest)) = none := by
      apply parenP_none
      obtain ⟨c, s, hc, _⟩ := hn
      right
      refine ⟨c, s ++ (b' ++ '(' :: (s' ++ b'' ++ [')']) ++ rest), ?_, ?_⟩
      · rw [List.append_assoc, skip_blanks _ _ hb, List.cons_append,
          skip_cons _ _ (alpha_not_blank c hc)]
      · rintro rfl; revert hc; decide
    refine ⟨.atom (.call f x), rest, ?_, rfl, by simp [absBase, absAtom, habs]⟩
    rw [h0]
    simp only [baseP, h3, atomP, callP, h1, h2]

/-- a text of the grammar, followed by blanks, is entirely read -/
theorem phraseParse_complete (s b : Text) (e : E) (h : Writes .sum s e) (hb : Blanks b) :
    ∃ ast r, phraseParse (s ++ b) = some (ast, r) ∧ Blanks r ∧ absExpr ast = e := by
  have hst : Stop cSum b := by
    left
    have := skip_blanks b [] hb
    simpa [skip] using this
  obtain ⟨a, r, ha, hr, habs⟩ := expr_of_motive s e (motive_of_writes _ _ _ h) (s ++ b).length
    (by simp) b hst
  refine ⟨a, r, ha, ?_, habs⟩
  obtain ⟨b', hb', hr'⟩ := skip_split r
  have h0 : skip b = [] := by
    have := skip_blanks b [] hb
    simpa [skip] using this
  rw [hr, h0, List.append_nil] at hr'
  rw [hr']; exact hb'

/-! ### Well-formed syntax trees -/

mutual
/-- only the operators of the grammar appear in the tree -/
def wfAtom : Atom → Prop
  | .num _ => True
  | .ident _ => True
  | .call _ e => wfExpr e
def wfBase : Base → Prop
  | .paren e => wfExpr e
  | .atom a => wfAtom a
def wfExps : List Base → Prop
  | [] => True
  | e :: l => wfBase e ∧ wfExps l
def wfFactor : Factor → Prop
  | .mk b l => wfBase b ∧ wfExps l
def wfFactors : List (Char × Factor) → Prop
  | [] => True
  | (c, f) :: l => isMul c = true ∧ wfFactor f ∧ wfFactors l
def wfTerm : Term → Prop
  | .mk f l => wfFactor f ∧ wfFactors l
def wfTerms : List (Char × Term) → Prop
  | [] => True
  | (c, t) :: l => isAdd c = true ∧ wfTerm t ∧ wfTerms l
def wfExpr : Expr → Prop
  | .mk t l => wfTerm t ∧ wfTerms l
end

theorem wfExps_of (l : List (Char × Base)) (h : ∀ x ∈ l, wfBase x.2) :
    wfExps (l.map Prod.snd) := by
  induction l with
  | nil => simp [wfExps]
  | cons x l ih =>
    exact ⟨h x (by simp), ih (fun y hy => h y (by simp [hy]))⟩

theorem wfFactors_of (l : List (Char × Factor)) (h : ∀ x ∈ l, isMul x.1 = true ∧ wfFactor x.2) :
    wfFactors l := by
  induction l with
  | nil => simp [wfFactors]
  | cons x l ih =>
    exact ⟨(h x (by simp)).1, (h x (by simp)).2, ih (fun y hy => h y (by simp [hy]))⟩

theorem wfTerms_of (l : List (Char × Term)) (h : ∀ x ∈ l, isAdd x.1 = true ∧ wfTerm x.2) :
    wfTerms l := by
  induction l with
  | nil => simp [wfTerms]
  | cons x l ih =>
    exact ⟨(h x (by simp)).1, (h x (by simp)).2, ih (fun y hy => h y (by simp [hy]))⟩

/-! ### What the parser reads is a text of the grammar -/

theorem lit1_sound (c : Char) (s r : Text) (h : lit1 c s = some r) :
    ∃ b, Blanks b ∧ s = b ++ c :: r := by
  obtain ⟨b, hb, hs⟩ := skip_split s
  refine ⟨b, hb, ?_⟩
  unfold lit1 at h
  cases hk : skip s with
  | nil => simp [hk] at h
  | cons c' r' =>
    simp only [hk] at h
    split at h
    · rename_i hc
      rw [hs, hk, hc]; simp only [Option.some.injEq] at h; rw [h]
    · cases h

theorem opP_sound (ok : Char → Bool) (s : Text) (c : Char) (r : Text)
    (h : opP ok s = some (c, r)) : ok c = true ∧ ∃ b, Blanks b ∧ s = b ++ c :: r := by
  obtain ⟨b, hb, hs⟩ := skip_split s
  unfold opP at h
  cases hk : skip s with
  | nil => simp [hk] at h
  | cons c' r' =>
    simp only [hk] at h
    split at h
    · rename_i hc
      simp only [Option.some.injEq, Prod.mk.injEq] at h
      obtain ⟨rfl, rfl⟩ := h
      exact ⟨hc, b, hb, by rw [← hk]; exact hs⟩
    · cases h

/-- a parser reads only texts of a level -/
def Sound {α : Type} (p : Parser α) (abs : α → E) (wf : α → Prop) (lv : Level) : Prop :=
  ∀ s a r, p s = some (a, r) → wf a ∧ ∃ s', s = s' ++ r ∧ Writes lv s' (abs a)

theorem star_sound {α : Type} (p : Parser α) (abs : α → E) (wf : α → Prop) (ok : Char → Bool)
    (lv lv' : Level) (hp : Sound p abs wf lv)
    (hlink : ∀ s a b c s' e, Writes lv' s a → Blanks b → ok c = true → Writes lv s' e →
      Writes lv' (s ++ b ++ c :: s') (eOp c a e)) :
    ∀ (n : Nat) (s : Text) (s0 : Text) (a0 : E), Writes lv' s0 a0 →
      ∃ s', s = s' ++ (star (opAnd ok p) n s).2 ∧
        Writes lv' (s0 ++ s')
          (foldE a0 ((star (opAnd ok p) n s).1.map fun x => (x.1, abs x.2))) ∧
        (∀ x ∈ (star (opAnd ok p) n s).1, ok x.1 = true ∧ wf x.2) := by
  intro n
  induction n with
  | zero =>
    intro s s0 a0 h
    exact ⟨[], by simp [star], by simpa [star, foldE] using h, by simp [star]⟩
  | succ n ih =>
    intro s s0 a0 h
    cases ho : opP ok s with
    | none =>
      simp only [star, opAnd, ho]
      exact ⟨[], by simp, by simpa [foldE] using h, by simp⟩
    | some x =>
      obtain ⟨c, r⟩ := x
      cases hq : p r with
      | none =>
        simp only [star, opAnd, ho, hq]
        exact ⟨[], by simp, by simpa [foldE] using h, by simp⟩
      | some y =>
        obtain ⟨a, r'⟩ := y
        simp only [star, opAnd, ho, hq]
        obtain ⟨hok, b, hb, rfl⟩ := opP_sound ok s c r ho
        obtain ⟨hwf, s1, rfl, hw⟩ := hp r a r' hq
        obtain ⟨s2, hs2, hw2, hall⟩ := ih r' (s0 ++ b ++ c :: s1) (eOp c a0 (abs a))
          (hlink s0 a0 b c s1 (abs a) h hb hok hw)
        have heq : s0 ++ b ++ c :: s1 ++ s2 = s0 ++ (b ++ c :: (s1 ++ s2)) := by simp
        have hs3 : b ++ c :: (s1 ++ r') =
            b ++ c :: (s1 ++ s2) ++ (star (opAnd ok p) n r').2 := by
          conv_lhs => rw [hs2]
          simp
        refine ⟨b ++ c :: (s1 ++ s2), hs3, ?_, ?_⟩
        · rw [heq] at hw2
          simpa [foldE] using hw2
        · intro x hx
          rcases List.mem_cons.mp hx with rfl | hx
          · exact ⟨hok, hwf⟩
          · exact hall x hx

theorem chain_sound {α β : Type} (mk : α → List (Char × α) → β) (p : Parser α) (abs : α → E)
    (absB : β → E) (wf : α → Prop) (wfB : β → Prop) (ok : Char → Bool) (lv lv' : Level)
    (hp : Sound p abs wf lv)
    (hup : ∀ s e, Writes lv s e → Writes lv' s e)
    (hlink : ∀ s a b c s' e, Writes lv' s a → Blanks b → ok c = true → Writes lv s' e →
      Writes lv' (s ++ b ++ c :: s') (eOp c a e))
    (hmk : ∀ a l, (∀ x ∈ l, ok x.1 = true) →
      absB (mk a l) = foldE (abs a) (l.map fun x => (x.1, abs x.2)))
    (hwf : ∀ a l, wf a → (∀ x ∈ l, ok x.1 = true ∧ wf x.2) → wfB (mk a l)) :
    Sound (chainP mk ok p) absB wfB lv' := by
  intro s y r h
  unfold chainP at h
  cases hq : p s with
  | none => simp [hq] at h
  | some x =>
    obtain ⟨a, r0⟩ := x
    simp only [hq, Option.some.injEq, Prod.mk.injEq] at h
    obtain ⟨rfl, rfl⟩ := h
    obtain ⟨hwa, s0, hs0, hw⟩ := hp s a r0 hq
    obtain ⟨s', hs', hw', hall⟩ := star_sound p abs wf ok lv lv' hp hlink r0.length r0 s0 (abs a)
      (hup _ _ hw)
    refine ⟨hwf _ _ hwa hall, s0 ++ s', ?_, ?_⟩
    · rw [hs0]; conv_lhs => rw [hs']
      simp
    · rw [hmk _ _ (fun x hx => (hall x hx).1)]; exact hw'

theorem identTail_sound (s : Text) : ∃ s', s = s' ++ (identTail s).2 ∧
    (∀ x ∈ s', x.isAlphanum = true ∨ x = '_' ∨ x = ' ' ∨ x = '\t') ∧
    (identTail s).1 = s'.filter (fun x => !(x == ' ' || x == '\t')) := by
  induction s with
  | nil => exact ⟨[], by simp [identTail], by simp, by simp [identTail]⟩
  | cons c s ih =>
    obtain ⟨s', hs, hall, hf⟩ := ih
    by_cases hb : isBlank c = true
    · have hb' : (c == ' ' || c == '\t') = true := hb
      refine ⟨c :: s', ?_, ?_, ?_⟩
      · simp only [identTail, hb, if_true, List.cons_append]; rw [← hs]
      · intro x hx
        rcases List.mem_cons.mp hx with rfl | hx
        · exact .inr (.inr ((isBlank_iff _).1 hb))
        · exact hall x hx
      · simp only [identTail, hb, if_true, List.filter_cons, hb', Bool.not_true,
          Bool.false_eq_true, if_false]
        exact hf
    · have hb' : (c == ' ' || c == '\t') = false := by simpa [isBlank] using hb
      by_cases hi : isIdentChar c = true
      · refine ⟨c :: s', ?_, ?_, ?_⟩
        · simp only [identTail, hb, hi, if_true, List.cons_append, Bool.false_eq_true, if_false]
          rw [← hs]
        · intro x hx
          rcases List.mem_cons.mp hx with rfl | hx
          · simp only [isIdentChar, Bool.or_eq_true, beq_iff_eq] at hi
            rcases hi with h | h
            · exact .inl h
            · exact .inr (.inl h)
          · exact hall x hx
        · simp only [identTail, hb, hi, if_true, List.filter_cons, hb', Bool.not_false,
            Bool.false_eq_true, if_false, hf]
      · refine ⟨[], ?_, by simp, ?_⟩
        · simp [identTail, hb, hi]
        · simp [identTail, hb, hi]

theorem identP_sound (s n r : Text) (h : identP s = some (n, r)) :
    ∃ b s', Blanks b ∧ Identifier s' n ∧ s = b ++ s' ++ r := by
  obtain ⟨b, hb, hs⟩ := skip_split s
  unfold identP at h
  cases hk : skip s with
  | nil => simp [hk] at h
  | cons c t =>
    simp only [hk] at h
    split at h
    · rename_i hc
      simp only [Option.some.injEq, Prod.mk.injEq] at h
      obtain ⟨rfl, rfl⟩ := h
      obtain ⟨s', hs', hall, hf⟩ := identTail_sound t
      refine ⟨b, c :: s', hb, ?_, ?_⟩
      · rw [hf]; exact Identifier.mk c s' hc hall
      · rw [hs, hk]; conv_lhs => rw [hs']
        simp
    · cases h

theorem signP_sound (s : Text) : Sign (signP s).1 ∧ s = (signP s).1 ++ (signP s).2 := by
  cases s with
  | nil => exact ⟨.inl rfl, rfl⟩
  | cons c r =>
    by_cases h : c = '+' ∨ c = '-'
    · simp only [signP, h, if_true]
      rcases h with rfl | rfl
      · exact ⟨.inr (.inl rfl), rfl⟩
      · exact ⟨.inr (.inr rfl), rfl⟩
    · simp only [signP, h, if_false]
      exact ⟨.inl rfl, rfl⟩

theorem digits_takeWhile (s : Text) : Digits (s.takeWhile Char.isDigit) := fun c hc =>
  mem_takeWhile_pos _ _ c hc

theorem expP_sound (s : Text) : Exponent (expP s).1 ∧ s = (expP s).1 ++ (expP s).2 := by
  cases s with
  | nil => exact ⟨.none, rfl⟩
  | cons c r =>
    by_cases h : c = 'e' ∨ c = 'E'
    · by_cases h2 : (signP r).2.takeWhile Char.isDigit = []
      · simp only [expP, h, if_true, h2]
        exact ⟨.none, rfl⟩
      · simp only [expP, h, if_true, h2, if_false]
        obtain ⟨hsg, hr⟩ := signP_sound r
        refine ⟨.some c _ _ h hsg (digits_takeWhile _) h2, ?_⟩
        conv_lhs => rw [hr]
        simp [List.takeWhile_append_dropWhile]
    · simp only [expP, h, if_false]
      exact ⟨.none, rfl⟩

theorem mantP_sound (s m r : Text) (h : mantP s = some (m, r)) : Mantissa m ∧ s = m ++ r := by
  unfold mantP at h
  have hs := (List.takeWhile_append_dropWhile (p := Char.isDigit) (l := s)).symm
  cases hd : s.dropWhile Char.isDigit with
  | nil =>
    simp only [hd] at h
    split at h
    · cases h
    · rename_i hn
      simp only [Option.some.injEq, Prod.mk.injEq] at h
      obtain ⟨rfl, rfl⟩ := h
      exact ⟨.int _ (digits_takeWhile _) hn, by rw [← hd]; exact hs⟩
  | cons c t =>
    simp only [hd] at h
    split at h
    · rename_i hc
      subst hc
      split at h
      · cases h
      · rename_i hn
        simp only [Option.some.injEq, Prod.mk.injEq] at h
        obtain ⟨rfl, rfl⟩ := h
        refine ⟨.dec _ _ (digits_takeWhile _) (digits_takeWhile _) ?_, ?_⟩
        · intro h0
          rw [List.append_eq_nil_iff] at h0
          exact hn h0
        · conv_lhs => rw [hs, hd]
          simp [List.takeWhile_append_dropWhile]
    · split at h
      · cases h
      · rename_i hn
        simp only [Option.some.injEq, Prod.mk.injEq] at h
        obtain ⟨rfl, rfl⟩ := h
        exact ⟨.int _ (digits_takeWhile _) hn, by rw [← hd]; exact hs⟩

theorem numLit_sound (s l r : Text) (h : numLit s = some (l, r)) : Literal l ∧ s = l ++ r := by
  unfold numLit at h
  obtain ⟨hsg, hs⟩ := signP_sound s
  cases hm : mantP (signP s).2 with
  | none => simp [hm] at h
  | some x =>
    obtain ⟨m, t⟩ := x
    simp only [hm, Option.some.injEq, Prod.mk.injEq] at h
    obtain ⟨rfl, rfl⟩ := h
    obtain ⟨hmm, hst⟩ := mantP_sound _ _ _ hm
    obtain ⟨he, ht⟩ := expP_sound t
    refine ⟨.mk _ _ _ hsg hmm he, ?_⟩
    conv_lhs => rw [hs, hst, ht]
    simp

theorem parenP_sound (e : Parser Expr) (he : Sound e absExpr wfExpr .sum) (s : Text) (x : Expr)
    (r : Text) (h : parenP e s = some (x, r)) :
    wfExpr x ∧ ∃ b s' b', Blanks b ∧ Blanks b' ∧ Writes .sum s' (absExpr x) ∧
      s = b ++ '(' :: (s' ++ b' ++ [')']) ++ r := by
  unfold parenP at h
  cases h1 : lit1 '(' s with
  | none => simp [h1] at h
  | some r1 =>
    simp only [h1] at h
    cases h2 : e r1 with
    | none => simp [h2] at h
    | some y =>
      obtain ⟨y, r2⟩ := y
      simp only [h2] at h
      cases h3 : lit1 ')' r2 with
      | none => simp [h3] at h
      | some r3 =>
        simp only [h3, Option.some.injEq, Prod.mk.injEq] at h
        obtain ⟨rfl, rfl⟩ := h
        obtain ⟨b, hb, rfl⟩ := lit1_sound _ _ _ h1
        obtain ⟨hwf, s', rfl, hw⟩ := he _ _ _ h2
        obtain ⟨b', hb', rfl⟩ := lit1_sound _ _ _ h3
        exact ⟨hwf, b, s', b', hb, hb', hw, by simp⟩

theorem baseP_sound (e : Parser Expr) (he : Sound e absExpr wfExpr .sum) :
    Sound (baseP e) absBase wfBase .base := by
  intro s a r h
  unfold baseP at h
  cases h1 : parenP e s with
  | some x =>
    obtain ⟨x, r'⟩ := x
    simp only [h1, Option.some.injEq, Prod.mk.injEq] at h
    obtain ⟨rfl, rfl⟩ := h
    obtain ⟨hwf, b, s', b', hb, hb', hw, rfl⟩ := parenP_sound e he s x r' h1
    exact ⟨by simpa [wfBase] using hwf, _, rfl, by simpa [absBase] using Writes.paren hb hw hb'⟩
  | none =>
    simp only [h1] at h
    cases h2 : atomP e s with
    | none => simp [h2] at h
    | some x =>
      obtain ⟨x, r'⟩ := x
      simp only [h2, Option.some.injEq, Prod.mk.injEq] at h
      obtain ⟨rfl, rfl⟩ := h
      unfold atomP at h2
      cases h3 : callP e s with
      | some y =>
        simp only [h3, Option.some.injEq] at h2
        subst h2
        unfold callP at h3
        cases h4 : identP s with
        | none => simp [h4] at h3
        | some z =>
          obtain ⟨f, r4⟩ := z
          simp only [h4] at h3
          cases h5 : parenP e r4 with
          | none => simp [h5] at h3
          | some w =>
            obtain ⟨w, r5⟩ := w
            simp only [h5, Option.some.injEq, Prod.mk.injEq] at h3
            obtain ⟨rfl, rfl⟩ := h3
            obtain ⟨b, s1, hb, hid, rfl⟩ := identP_sound _ _ _ h4
            obtain ⟨hwf, b1, s2, b2, hb1, hb2, hw, rfl⟩ := parenP_sound e he _ _ _ h5
            refine ⟨by simpa [wfBase, wfAtom] using hwf, b ++ s1 ++ b1 ++ '(' :: (s2 ++ b2 ++ [')']), by simp, ?_⟩
            simpa [absBase, absAtom] using Writes.call hb hid hb1 hw hb2
      | none =>
        simp only [h3] at h2
        cases h4 : identP s with
        | some z =>
          obtain ⟨n, r4⟩ := z
          simp only [h4, Option.some.injEq, Prod.mk.injEq] at h2
          obtain ⟨rfl, rfl⟩ := h2
          obtain ⟨b, s1, hb, hid, rfl⟩ := identP_sound _ _ _ h4
          exact ⟨by simp [wfBase, wfAtom], _, rfl,
            by simpa [absBase, absAtom] using Writes.name hb hid⟩
        | none =>
          simp only [h4] at h2
          cases h5 : numLit (skip s) with
          | none => simp [h5] at h2
          | some z =>
            obtain ⟨l, r5⟩ := z
            simp only [h5, Option.some.injEq, Prod.mk.injEq] at h2
            obtain ⟨rfl, rfl⟩ := h2
            obtain ⟨hl, hs⟩ := numLit_sound _ _ _ h5
            obtain ⟨b, hb, hsp⟩ := skip_split s
            refine ⟨by simp [wfBase, wfAtom], b ++ l, ?_,
              by simpa [absBase, absAtom] using Writes.num hb hl⟩
            rw [hsp, hs]; simp

theorem exprP_sound (d : Nat) : Sound (exprP d) absExpr wfExpr .sum := by
  induction d with
  | zero => intro s a r h; simp [exprP] at h
  | succ d ih =>
    have hf : Sound (factorP (exprP d)) absFactor wfFactor .power := by
      refine chain_sound _ _ absBase absFactor wfBase wfFactor isHat .base .power
        (baseP_sound _ ih) (fun s e h => .base h) ?_ ?_
        (fun a l ha hl => ⟨ha, wfExps_of l (fun x hx => (hl x hx).2)⟩)
      · intro s a b c s' e h hb hc h'
        have : c = '^' := by simpa [isHat] using hc
        subst this; exact Writes.pow h hb h'
      · intro a l hl
        simp only [absFactor]
        exact absExps_eq _ _ (fun x hx => by simpa [isHat] using hl x hx)
    have ht : Sound (termP (exprP d)) absTerm wfTerm .product := by
      refine chain_sound _ _ absFactor absTerm wfFactor wfTerm isMul .power .product hf
        (fun s e h => .power h) ?_ ?_ (fun a l ha hl => ⟨ha, wfFactors_of l hl⟩)
      · intro s a b c s' e h hb hc h'
        have : c = '*' ∨ c = '/' := by simpa [isMul] using hc
        rcases this with rfl | rfl
        · exact Writes.mul h hb h'
        · exact Writes.div h hb h'
      · intro a l hl
        simp only [absTerm, absFactors_eq _ _ hl]
    refine chain_sound _ _ absTerm absExpr wfTerm wfExpr isAdd .product .sum ht
      (fun s e h => .product h) ?_ ?_ (fun a l ha hl => ⟨ha, wfTerms_of l hl⟩)
    · intro s a b c s' e h hb hc h'
      have : c = '+' ∨ c = '-' := by simpa [isAdd] using hc
      rcases this with rfl | rfl
      · exact Writes.add h hb h'
      · exact Writes.sub h hb h'
    · intro a l hl
      simp only [absExpr, absTerms_eq _ _ hl]

/-! ### The compiler -/

section
variable (fmt : Text → Text)

/-- the name under which a call of an unknown function is looked up -/
def printE : E → Text
  | .num l => fmt l
  | .name n => n
  | .call f e => f ++ "(".toList ++ printE e ++ ")".toList
  | .add a b => printE a ++ ['+'] ++ "(".toList ++ printE b ++ ")".toList
  | .sub a b => printE a ++ ['-'] ++ "(".toList ++ printE b ++ ")".toList
  | .mul a b => printE a ++ ['*'] ++ "(".toList ++ printE b ++ ")".toList
  | .div a b => printE a ++ ['/'] ++ "(".toList ++ printE b ++ ")".toList
  | .pow a b => "(".toList ++ printE a ++ ")^(".toList ++ printE b ++ ")".toList

/-- the node of an expression -/
def nodeE : E → Node
  | .num l => .constant l
  | .name n => if n = "t".toList then .time else .unknown n
  | .call f e => callNode f (nodeE e) (printE fmt (.call f e))
  | .add a b => .bin .sum (nodeE a) (nodeE b)
  | .sub a b => .bin .difference (nodeE a) (nodeE b)
  | .mul a b => .bin .multiply (nodeE a) (nodeE b)
  | .div a b => .bin .divide (nodeE a) (nodeE b)
  | .pow a b => .bin .pow (nodeE a) (nodeE b)

theorem printE_eOp4 (c : Char) (a b : E) (h : isMul c = true ∨ isAdd c = true) :
    printE fmt (eOp4 c a b) = printE fmt a ++ [c] ++ "(".toList ++ printE fmt b ++ ")".toList := by
  have : c = '*' ∨ c = '/' ∨ c = '+' ∨ c = '-' := by
    simp only [isMul, isAdd, Bool.or_eq_true, beq_iff_eq] at h
    tauto
  rcases this with rfl | rfl | rfl | rfl <;> rfl

theorem nodeE_eOp4 (c : Char) (a b : E) :
    nodeE fmt (eOp4 c a b) = applyOp c (nodeE fmt a) (nodeE fmt b) := by
  unfold eOp4 applyOp
  split
  · rfl
  · split
    · rfl
    · split
      · rfl
      · split <;> rfl

mutual
theorem printAtom_eq : ∀ a : Atom, wfAtom a → printAtom fmt a = printE fmt (absAtom a)
  | .num l, _ => by simp [printAtom, absAtom, printE]
  | .ident n, _ => by simp [printAtom, absAtom, printE]
  | .call f e, h => by
    simp only [wfAtom] at h
    simp [printAtom, absAtom, printE, printExpr_eq e h]
theorem printBase_eq : ∀ b : Base, wfBase b → printBase fmt b = printE fmt (absBase b)
  | .paren e, h => by
    simp only [wfBase] at h
    simp [printBase, absBase, printExpr_eq e h]
  | .atom a, h => by
    simp only [wfBase] at h
    simp [printBase, absBase, printAtom_eq a h]
theorem printExps_eq : ∀ (a : E) (l : List Base), wfExps l →
    printExps fmt (printE fmt a) l = printE fmt (absExps a l)
  | a, [], _ => by simp [printExps, absExps]
  | a, e :: l, h => by
    simp only [wfExps] at h
    simp only [printExps, absExps, printBase_eq e h.1]
    exact printExps_eq (.pow a (absBase e)) l h.2
theorem printFactor_eq : ∀ f : Factor, wfFactor f → printFactor fmt f = printE fmt (absFactor f)
  | .mk b l, h => by
    simp only [wfFactor] at h
    simp only [printFactor, absFactor, printBase_eq b h.1]
    exact printExps_eq _ l h.2
theorem printFactors_eq : ∀ (a : E) (l : List (Char × Factor)), wfFactors l →
    printFactors fmt (printE fmt a) l = printE fmt (absFactors a l)
  | a, [], _ => by simp [printFactors, absFactors]
  | a, (c, f) :: l, h => by
    simp only [wfFactors] at h
    simp only [printFactors, absFactors, printFactor_eq f h.2.1]
    rw [← printE_eOp4 fmt c a (absFactor f) (.inl h.1)]
    exact printFactors_eq _ l h.2.2
theorem printTerm_eq : ∀ t : Term, wfTerm t → printTerm fmt t = printE fmt (absTerm t)
  | .mk f l, h => by
    simp only [wfTerm] at h
    simp only [printTerm, absTerm, printFactor_eq f h.1]
    exact printFactors_eq _ l h.2
theorem printTerms_eq : ∀ (a : E) (l : List (Char × Term)), wfTerms l →
    printTerms fmt (printE fmt a) l = printE fmt (absTerms a l)
  | a, [], _ => by simp [printTerms, absTerms]
  | a, (c, t) :: l, h => by
    simp only [wfTerms] at h
    simp only [printTerms, absTerms, printTerm_eq t h.2.1]
    rw [← printE_eOp4 fmt c a (absTerm t) (.inr h.1)]
    exact printTerms_eq _ l h.2.2
theorem printExpr_eq : ∀ e : Expr, wfExpr e → printExpr fmt e = printE fmt (absExpr e)
  | .mk t l, h => by
    simp only [wfExpr] at h
    simp only [printExpr, absExpr, printTerm_eq t h.1]
    exact printTerms_eq _ l h.2
end

mutual
theorem evalAtom_eq : ∀ a : Atom, wfAtom a → evalAtom fmt a = nodeE fmt (absAtom a)
  | .num l, _ => by simp [evalAtom, absAtom, nodeE]
  | .ident n, _ => by simp [evalAtom, absAtom, nodeE]
  | .call f e, h => by
    have hp := printAtom_eq fmt (.call f e) h
    simp only [wfAtom] at h
    simp only [evalAtom, absAtom, nodeE, evalExpr_eq e h]
    rw [hp]; simp only [absAtom]
theorem evalBase_eq : ∀ b : Base, wfBase b → evalBase fmt b = nodeE fmt (absBase b)
  | .paren e, h => by
    simp only [wfBase] at h
    simp [evalBase, absBase, evalExpr_eq e h]
  | .atom a, h => by
    simp only [wfBase] at h
    simp [evalBase, absBase, evalAtom_eq a h]
theorem evalExps_eq : ∀ (a : E) (l : List Base), wfExps l →
    evalExps fmt (nodeE fmt a) l = nodeE fmt (absExps a l)
  | a, [], _ => by simp [evalExps, absExps]
  | a, e :: l, h => by
    simp only [wfExps] at h
    simp only [evalExps, absExps, evalBase_eq e h.1]
    exact evalExps_eq (.pow a (absBase e)) l h.2
theorem evalFactor_eq : ∀ f : Factor, wfFactor f → evalFactor fmt f = nodeE fmt (absFactor f)
  | .mk b l, h => by
    simp only [wfFactor] at h
    simp only [evalFactor, absFactor, evalBase_eq b h.1]
    exact evalExps_eq _ l h.2
theorem evalFactors_eq : ∀ (a : E) (l : List (Char × Factor)), wfFactors l →
    evalFactors fmt (nodeE fmt a) l = nodeE fmt (absFactors a l)
  | a, [], _ => by simp [evalFactors, absFactors]
  | a, (c, f) :: l, h => by
    simp only [wfFactors] at h
    simp only [evalFactors, absFactors, evalFactor_eq f h.2.1]
    rw [← nodeE_eOp4 fmt c a (absFactor f)]
    exact evalFactors_eq _ l h.2.2
theorem evalTerm_eq : ∀ t : Term, wfTerm t → evalTerm fmt t = nodeE fmt (absTerm t)
  | .mk f l, h => by
    simp only [wfTerm] at h
    simp only [evalTerm, absTerm, evalFactor_eq f h.1]
    exact evalFactors_eq _ l h.2
theorem evalTerms_eq : ∀ (a : E) (l : List (Char × Term)), wfTerms l →
    evalTerms fmt (nodeE fmt a) l = nodeE fmt (absTerms a l)
  | a, [], _ => by simp [evalTerms, absTerms]
  | a, (c, t) :: l, h => by
    simp only [wfTerms] at h
    simp only [evalTerms, absTerms, evalTerm_eq t h.2.1]
    rw [← nodeE_eOp4 fmt c a (absTerm t)]
    exact evalTerms_eq _ l h.2.2
theorem evalExpr_eq : ∀ e : Expr, wfExpr e → evalExpr fmt e = nodeE fmt (absExpr e)
  | .mk t l, h => by
    simp only [wfExpr] at h
    simp only [evalExpr, absExpr, evalTerm_eq t h.1]
    exact evalTerms_eq _ l h.2
end

/-- the node compiled from a text of the grammar -/
theorem compile_writes (s b : Text) (e : E) (h : Writes .sum s e) (hb : Blanks b) :
    compile fmt (s ++ b) = nodeE fmt e := by
  obtain ⟨ast, r, hp, _, habs⟩ := phraseParse_complete s b e h hb
  obtain ⟨hwf, _⟩ := exprP_sound _ _ _ _ hp
  simp only [compile, hp, evalExpr_eq fmt ast hwf, habs]

end

end Xdyn.Maneuvering

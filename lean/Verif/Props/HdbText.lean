import Verif.Spec.HdbText
import Mathlib.Tactic.Set

/-
The text of HDB files (C157, C158).
-/

namespace Xdyn.Hdb

open Format

/-! ### Combinators -/

section
variable {α β : Type}

theorem andThen_some {p : Parser α} {q : α → Parser β} {s r : List Char} {a : α} (h : p s = .ok (some (a, r))) :
    andThen p q s = q a r := by simp only [andThen, h]

theorem andThen_none {p : Parser α} {q : α → Parser β} {s : List Char} (h : p s = .ok none) :
    andThen p q s = .ok none := by simp only [andThen, h]

theorem orElse_some {p q : Parser α} {s : List Char} {x} (h : p s = .ok (some x)) : orElse p q s = .ok (some x) := by
  simp only [orElse, h]

theorem orElse_none {p q : Parser α} {s : List Char} (h : p s = .ok none) : orElse p q s = q s := by simp only [orElse, h]

theorem opt_some {p : Parser α} {s r : List Char} {a : α} (h : p s = .ok (some (a, r))) : opt p s = .ok (some ((), r)) := by
  unfold opt; rw [orElse_some]; rw [andThen_some h]; rfl

theorem opt_none {p : Parser α} {s : List Char} (h : p s = .ok none) : opt p s = .ok (some ((), s)) := by
  unfold opt; rw [orElse_none (andThen_none h)]; rfl

/-- `p` reads the elements of `l` one after the other in `s`, then fails on `g`. -/
inductive Steps (p : Parser α) : List α → List Char → List Char → Prop where
  | nil {g} : p g = .ok none → Steps p [] g g
  | cons {a l s r g} : p s = .ok (some (a, r)) → r.length < s.length → Steps p l r g → Steps p (a :: l) s g

theorem manyN_of_steps {p : Parser α} {l s g} (h : Steps p l s g) : ∀ n, s.length ≤ n → manyN p n s = .ok (some (l, g)) := by
  induction h with
  | @nil g hg =>
    intro n _
    cases n with
    | zero => rfl
    | succ n => simp only [manyN, hg]
  | cons ha hlt _ ih =>
    intro n hn
    cases n with
    | zero => omega
    | succ n => simp only [manyN, ha, ih n (by omega)]

theorem many_of_steps {p : Parser α} {l s g} (h : Steps p l s g) : many p s = .ok (some (l, g)) :=
  manyN_of_steps h _ le_rfl

theorem plus_of_steps {p : Parser α} {a l s g} (h : Steps p (a :: l) s g) : plus p s = .ok (some (a :: l, g)) := by
  cases h with
  | cons ha _ hs => unfold plus; rw [andThen_some ha, andThen_some (many_of_steps hs)]; rfl

theorem plus_none {p : Parser α} {s} (h : p s = .ok none) : plus p s = .ok none := by unfold plus; rw [andThen_none h]

end

/-! ### Characters -/

theorem split_while (p : Char → Bool) (a b : List Char) (ha : ∀ c ∈ a, p c = true) (hb : ∀ c r, b = c :: r → p c = false) :
    (a ++ b).takeWhile p = a ∧ (a ++ b).dropWhile p = b := by
  induction a with
  | nil =>
    cases b with
    | nil => simp
    | cons c r => simp [hb c r rfl]
  | cons c a ih =>
    have h1 := ha c (by simp)
    have h2 := ih (fun d hd => ha d (by simp [hd]))
    simp [h1, h2]

theorem isBlank_iff (c : Char) : isBlank c = true ↔ c = ' ' ∨ c = '\t' := by simp [isBlank]

theorem skip_blanks {b : List Char} (h : Blanks b) (s : List Char) : skip (b ++ s) = skip s := by
  unfold skip
  induction b with
  | nil => rfl
  | cons c b ih =>
    have := (isBlank_iff c).mpr (h c (by simp))
    simp only [List.cons_append, List.dropWhile_cons, this, if_true]
    exact ih (fun d hd => h d (by simp [hd]))

theorem skip_cons {c : Char} (h : isBlank c = false) (s : List Char) : skip (c :: s) = c :: s := by simp [skip, h]

theorem endOfLine_eol {e : List Char} (h : EndOfLine e) (r : List Char) : eol (e ++ r) = .ok (some ((), r)) := by
  obtain ⟨b, hb, rfl | rfl⟩ := h <;> unfold eol <;> rw [List.append_assoc, skip_blanks hb, List.cons_append, skip_cons (by decide)] <;> rfl

theorem endOfLine_first {e : List Char} (h : EndOfLine e) (r : List Char) : ∃ c r', (c = '\n' ∨ c = '\r') ∧ skip (e ++ r) = c :: r' := by
  obtain ⟨b, hb, rfl | rfl⟩ := h <;> rw [List.append_assoc, skip_blanks hb, List.cons_append, skip_cons (by decide)]
  · exact ⟨_, _, .inl rfl, rfl⟩
  · exact ⟨_, _, .inr rfl, rfl⟩

theorem endOfLine_ne {e : List Char} (h : EndOfLine e) : e ≠ [] := by
  obtain ⟨b, -, rfl | rfl⟩ := h <;> simp

theorem eolRaw_none {c : Char} (h1 : c ≠ '\r') (h2 : c ≠ '\n') (r : List Char) : eolRaw (c :: r) = none := by
  unfold eolRaw
  split
  · rename_i h; cases h; exact absurd rfl h1
  · rename_i h; cases h; exact absurd rfl h1
  · rename_i h; cases h; exact absurd rfl h2
  · rfl

theorem isWord_of {c : Char} (h : WordChar c) : isWord c = true := by
  rcases h with h | h | h | h <;> simp [isWord, h]

theorem isFirst_of {c : Char} (h : Letter c) : isFirst c = true := by rcases h with h | h <;> simp [isFirst, h]

theorem wordChar_not_space {c : Char} (h : WordChar c) : (c == ' ') = false := by
  rcases h with rfl | rfl | rfl | h
  · decide
  · decide
  · decide
  · rw [beq_eq_false_iff_ne]; rintro rfl; revert h; decide

theorem letter_not_blank {c : Char} (h : Letter c) : isBlank c = false := by
  cases hb : isBlank c with
  | false => rfl
  | true =>
    rcases (isBlank_iff c).mp hb with rfl | rfl <;> rcases h with h | h <;> revert h <;> decide

/-- What ends a name. -/
def NameEnd (s : List Char) : Prop := ∃ b c r, Blanks b ∧ isWord c = false ∧ isBlank c = false ∧ s = b ++ c :: r

theorem nameEnd_bracket {b : List Char} (h : Blanks b) (r : List Char) : NameEnd (b ++ (']' :: r)) := ⟨b, ']', r, h, by decide, by decide, rfl⟩

theorem nameEnd_eol {e : List Char} (h : EndOfLine e) (r : List Char) : NameEnd (e ++ r) := by
  obtain ⟨b, hb, rfl | rfl⟩ := h
  · exact ⟨b, '\n', r, hb, by decide, by decide, by simp⟩
  · exact ⟨b, '\r', '\n' :: r, hb, by decide, by decide, by simp⟩

theorem nameEnd_first {s : List Char} (h : NameEnd s) : ∀ c r, s = c :: r → isWord c = false := by
  obtain ⟨b, c, r, hb, hw, -, rfl⟩ := h
  intro d r' hd
  cases b with
  | nil => cases hd; exact hw
  | cons x b => cases hd; rcases hb d (by simp) with rfl | rfl <;> decide

/-- A name does not go on after its end: no other word after spaces. -/
theorem nameEnd_stop {s : List Char} (h : NameEnd s) : (s.dropWhile (· == ' ')).takeWhile isWord = [] := by
  obtain ⟨b, c, r, hb, hw, hc, rfl⟩ := h
  induction b with
  | nil =>
    have : (c == ' ') = false := by
      rw [beq_eq_false_iff_ne]; rintro rfl; revert hc; decide
    simp [this, hw]
  | cons x b ih =>
    rcases hb x (by simp) with rfl | rfl
    · simpa using ih (fun d hd => hb d (by simp [hd]))
    · simp [show isWord '\t' = false from by decide]

theorem words_first {w s : List Char} (hw : Words w) (hs : NameEnd s) : ∀ c r, w ++ s = c :: r → isWord c = false := by
  cases hw with
  | nil => simpa using nameEnd_first hs
  | @cons sp w' s' h1 h2 _ _ _ =>
    intro c r hc
    cases sp with
    | nil => exact absurd rfl h1
    | cons x sp =>
      simp only [List.cons_append, List.cons.injEq] at hc
      rw [← hc.1, h2 x (by simp)]
      decide

theorem moreWords_of {w : List Char} (hw : Words w) (s : List Char) (hs : NameEnd s) :
    ∀ n, w.length ≤ n → moreWords n (w ++ s) = (w, s) := by
  induction hw with
  | nil =>
    intro n _
    cases n with
    | zero => rfl
    | succ n => simp [moreWords, nameEnd_stop hs]
  | @cons sp w r h1 h2 h3 h4 hr ih =>
    intro n hn
    have hl : 0 < sp.length := List.length_pos_iff.mpr h1
    simp only [List.length_append] at hn
    cases n with
    | zero => omega
    | succ n =>
      have e1 := split_while (· == ' ') sp (w ++ (r ++ s)) (by intro c hc; simp [h2 c hc]) (by
        intro c t hc
        cases w with
        | nil => exact absurd rfl h3
        | cons x w =>
          simp only [List.cons_append, List.cons.injEq] at hc
          rw [← hc.1]; exact wordChar_not_space (h4 x (by simp)))
      have e2 := split_while isWord w (r ++ s) (fun c hc => isWord_of (h4 c hc)) (words_first hr hs)
      have e : sp ++ (w ++ r) ++ s = sp ++ (w ++ (r ++ s)) := by simp
      rw [e]
      simp only [moreWords, e1.1, e1.2, e2.1, e2.2, ih n (by omega)]
      rw [if_neg (by simp [h1, h3])]
      simp

theorem str_name {v : String} (hv : Name v.toList) {b : List Char} (hb : Blanks b) {s : List Char} (hs : NameEnd s) :
    str (b ++ (v.toList ++ s)) = .ok (some (v, s)) := by
  obtain ⟨c, w, r, hvc, hc, hw, hws, hr⟩ := hv
  have e2 := split_while isWord w (r ++ s) (fun d hd => isWord_of (hws d hd)) (words_first hr hs)
  unfold str
  rw [skip_blanks hb, hvc, List.cons_append, skip_cons (letter_not_blank hc), List.append_assoc]
  simp only [e2.1, e2.2]
  rw [if_pos (by simp [isFirst_of hc, hw]), moreWords_of hr s hs _ (by simp only [List.length_append, List.length_cons]; omega)]
  simp only [List.cons_append] at hvc ⊢
  rw [← hvc, String.ofList_toList]

theorem header_reads {h : String} {s : List Char} (hs : Header h s) (r : List Char) : header (s ++ r) = .ok (some (h, r)) := by
  obtain ⟨b0, b1, b2, h0, h1, h2, hn, rfl⟩ := hs
  have e1 : lit '[' (b0 ++ '[' :: (b1 ++ (h.toList ++ (b2 ++ [']']))) ++ r) = .ok (some ((), b1 ++ (h.toList ++ (b2 ++ (']' :: r))))) := by
    unfold lit
    rw [List.append_assoc, skip_blanks h0, List.cons_append, skip_cons (by decide)]
    simp
  have e2 : lit ']' (b2 ++ (']' :: r)) = .ok (some ((), r)) := by
    unfold lit
    rw [skip_blanks h2, skip_cons (by decide)]
    simp
  unfold header
  rw [andThen_some e1, andThen_some (str_name hn h1 (nameEnd_bracket h2 r))]
  simp only [e2]

theorem header_first {h : String} {s : List Char} (hs : Header h s) (r : List Char) : ∃ r', skip (s ++ r) = '[' :: r' := by
  obtain ⟨b0, b1, b2, h0, h1, h2, hn, rfl⟩ := hs
  rw [List.append_assoc, skip_blanks h0, List.cons_append, skip_cons (by decide)]
  exact ⟨_, rfl⟩

theorem header_ne {h : String} {s : List Char} (hs : Header h s) : s ≠ [] := by
  obtain ⟨b0, b1, b2, h0, h1, h2, hn, rfl⟩ := hs
  simp

theorem str_none_of_first {c : Char} {r s : List Char} (h : skip s = c :: r) (hc : isFirst c = false) : str s = .ok none := by
  unfold str
  rw [h]
  simp [hc]

/-! ### Numbers -/

variable {K : Type} (N : Numbers K)

/-- What may follow a number. -/
def Sep (r : List Char) : Prop := r = [] ∨ ∃ c r', r = c :: r' ∧ (c = ' ' ∨ c = '\t' ∨ c = '\n' ∨ c = '\r')

theorem sep_eol {e : List Char} (h : EndOfLine e) (r : List Char) : Sep (e ++ r) := by
  obtain ⟨b, hb, rfl | rfl⟩ := h <;> cases b with
  | nil => exact .inr ⟨_, _, rfl, by simp⟩
  | cons c b =>
    refine .inr ⟨_, _, rfl, ?_⟩
    rcases hb c (by simp) with h | h <;> simp [h]

theorem isNum_first {x : K} {s : List Char} (h : IsNum N x s) (r : List Char) :
    ∃ c r', skip (s ++ r) = c :: r' ∧ (c.isDigit = true ∨ c = '+' ∨ c = '-' ∨ c = '.') := by
  obtain ⟨b, t, hb, ht, rfl⟩ := h
  obtain ⟨c, t', rfl, hc⟩ := N.first x t ht
  refine ⟨c, t' ++ r, ?_, hc⟩
  rw [List.append_assoc, skip_blanks hb, List.cons_append, skip_cons]
  cases hbl : isBlank c with
  | false => rfl
  | true => rcases (isBlank_iff c).mp hbl with rfl | rfl <;> revert hc <;> decide

theorem double_num {x : K} {s : List Char} (h : IsNum N x s) {r : List Char} (hr : Sep r) : double N.num (s ++ r) = .ok (some (x, r)) := by
  obtain ⟨c, r', hs, hc⟩ := isNum_first N h r
  obtain ⟨b, t, hb, ht, rfl⟩ := h
  obtain ⟨d, t', rfl, hd⟩ := N.first x t ht
  unfold double
  rw [List.append_assoc, skip_blanks hb] at hs
  have hnb : isBlank d = false := by
    cases hbl : isBlank d with
    | false => rfl
    | true => rcases (isBlank_iff d).mp hbl with rfl | rfl <;> revert hd <;> decide
  rw [List.append_assoc, skip_blanks hb, List.cons_append, skip_cons hnb, ← List.cons_append, N.reads x _ r ht hr]

theorem double_eol {e : List Char} (h : EndOfLine e) (r : List Char) : double N.num (e ++ r) = .ok none := by
  obtain ⟨c, r', hc, hs⟩ := endOfLine_first h r
  unfold double
  rw [hs, N.fails c r' (by rcases hc with h | h <;> simp [h])]

theorem double_header {h : String} {s : List Char} (hs : Header h s) (r : List Char) : double N.num (s ++ r) = .ok none := by
  obtain ⟨r', hr⟩ := header_first hs r
  unfold double
  rw [hr, N.fails '[' r' (by simp)]

theorem eol_num {x : K} {s : List Char} (h : IsNum N x s) (r : List Char) : eol (s ++ r) = .ok none := by
  obtain ⟨c, r', hs, hc⟩ := isNum_first N h r
  unfold eol
  rw [hs, eolRaw_none]
  · rfl
  · rintro rfl; revert hc; decide
  · rintro rfl; revert hc; decide

theorem eol_header {h : String} {s : List Char} (hs : Header h s) (r : List Char) : eol (s ++ r) = .ok none := by
  obtain ⟨r', hr⟩ := header_first hs r
  unfold eol
  rw [hr, eolRaw_none (by decide) (by decide)]
  rfl

theorem str_num {x : K} {s : List Char} (h : IsNum N x s) (r : List Char) : str (s ++ r) = .ok none := by
  obtain ⟨c, r', hs, hc⟩ := isNum_first N h r
  refine str_none_of_first hs ?_
  rcases hc with hc | rfl | rfl | rfl
  · cases hf : isFirst c with
    | false => rfl
    | true =>
      exfalso
      simp only [isFirst, Bool.or_eq_true, beq_iff_eq] at hf
      rcases hf with rfl | hf
      · revert hc; decide
      · simp only [Char.isAlpha, Char.isUpper, Char.isLower, Char.isDigit, Bool.or_eq_true, Bool.and_eq_true, decide_eq_true_eq] at hf hc
        have a1 := hc.1; have a2 := hc.2
        simp only [UInt32.le_iff_toNat_le, ge_iff_le] at *
        have : ('0' : Char).val.toNat = 48 := rfl
        have : ('9' : Char).val.toNat = 57 := rfl
        have : ('A' : Char).val.toNat = 65 := rfl
        have : ('a' : Char).val.toNat = 97 := rfl
        omega
  · decide
  · decide
  · decide

theorem str_eol {e : List Char} (h : EndOfLine e) (r : List Char) : str (e ++ r) = .ok none := by
  obtain ⟨c, r', hc, hs⟩ := endOfLine_first h r
  refine str_none_of_first hs ?_
  rcases hc with rfl | rfl <;> decide

theorem nextNum_isNum {x : K} {s : List Char} (h : NextNum N x s) : IsNum N x s := by
  obtain ⟨b, t, hb, -, ht, rfl⟩ := h; exact ⟨b, t, hb, ht, rfl⟩

theorem isNum_ne {x : K} {s : List Char} (h : IsNum N x s) : s ≠ [] := by
  obtain ⟨b, t, hb, ht, rfl⟩ := h
  obtain ⟨d, t', rfl, hd⟩ := N.first x t ht
  simp

theorem sep_next {x : K} {s : List Char} (h : NextNum N x s) (r : List Char) : Sep (s ++ r) := by
  obtain ⟨b, t, hb, hne, ht, rfl⟩ := h
  cases b with
  | nil => exact absurd rfl hne
  | cons c b =>
    refine .inr ⟨c, _, rfl, ?_⟩
    rcases hb c (by simp) with h | h <;> simp [h]

theorem sep_nexts {l : List K} {ss : List (List Char)} (h : List.Forall₂ (NextNum N) l ss) {e : List Char} (he : EndOfLine e) (r : List Char) :
    Sep (ss.flatten ++ (e ++ r)) := by
  cases h with
  | nil => simpa using sep_eol he r
  | cons h _ => rw [List.flatten_cons, List.append_assoc]; exact sep_next N h _

theorem steps_nexts {l : List K} {ss : List (List Char)} (h : List.Forall₂ (NextNum N) l ss) {e : List Char} (he : EndOfLine e) (r : List Char) :
    Steps (double N.num) l (ss.flatten ++ (e ++ r)) (e ++ r) := by
  induction h with
  | nil => exact .nil (by simpa using double_eol N he r)
  | @cons x s l ss hx hl ih =>
    rw [List.flatten_cons, List.append_assoc]
    refine .cons (double_num N (nextNum_isNum N hx) (sep_nexts N hl he r)) ?_ ih
    have := List.length_pos_iff.mpr (isNum_ne N (nextNum_isNum N hx))
    simp only [List.length_append]; omega

/-! ### Rows -/

theorem values_row {l : List K} {s : List Char} (h : RowLine N l s) (r : List Char) : values N.num (s ++ r) = .ok (some (l, r)) := by
  obtain ⟨x, y, l', s1, ss, e, rfl, hx, hss, he, rfl⟩ := h
  unfold values
  have e1 : s1 ++ (ss.flatten ++ e) ++ r = s1 ++ (ss.flatten ++ (e ++ r)) := by simp
  rw [e1, andThen_some (double_num N hx (sep_nexts N hss he r)), andThen_some (plus_of_steps (steps_nexts N hss he r)),
    andThen_some (opt_some (endOfLine_eol he r))]
  rfl

theorem rowLine_first {l : List K} {s : List Char} (h : RowLine N l s) (r : List Char) : eol (s ++ r) = .ok none := by
  obtain ⟨x, y, l', s1, ss, e, rfl, hx, hss, he, rfl⟩ := h
  rw [List.append_assoc]; exact eol_num N hx _

theorem rowLine_ne {l : List K} {s : List Char} (h : RowLine N l s) : s ≠ [] := by
  obtain ⟨x, y, l', s1, ss, e, rfl, hx, hss, he, rfl⟩ := h
  have := isNum_ne N hx
  simp [this]

/-- What follows a matrix: neither a number nor the end of a line. -/
def Stop (r : List Char) : Prop := double N.num r = .ok none ∧ eol r = .ok none

theorem values_none {r : List Char} (h : double N.num r = .ok none) : values N.num r = .ok none := by
  unfold values; rw [andThen_none h]

theorem stop_header {h : String} {s : List Char} (hs : Header h s) (r : List Char) : Stop N (s ++ r) :=
  ⟨double_header N hs r, eol_header hs r⟩

theorem noRow {e : List Char} (he : MaybeEmptyLine e) {r : List Char} (hr : Stop N r) : double N.num (e ++ r) = .ok none := by
  rcases he with rfl | he
  · exact hr.1
  · exact double_eol N he r

theorem noMoreRow {l : List (List K)} {ss : List (List Char)} (h : List.Forall₂ (RowLine N) l ss) {e : List Char} (he : MaybeEmptyLine e)
    {r : List Char} (hr : Stop N r) : andThen eol (fun _ => values N.num) (ss.flatten ++ (e ++ r)) = .ok none := by
  cases h with
  | nil =>
    rcases he with rfl | he
    · exact andThen_none (by simpa using hr.2)
    · rw [List.flatten_nil, List.nil_append, andThen_some (endOfLine_eol he r)]; exact values_none N hr.1
  | cons h _ => rw [List.flatten_cons, List.append_assoc]; exact andThen_none (rowLine_first N h _)

theorem steps_rows {l : List (List K)} {ss : List (List Char)} (h : List.Forall₂ (RowLine N) l ss) {e : List Char} (he : MaybeEmptyLine e)
    {r : List Char} (hr : Stop N r) : Steps (sepBy (values N.num) eol) (l.map (fun x => [x])) (ss.flatten ++ (e ++ r)) (e ++ r) := by
  induction h with
  | nil =>
    refine .nil ?_
    unfold sepBy
    exact andThen_none (values_none N (noRow N he hr))
  | @cons x s l ss hx hl ih =>
    rw [List.flatten_cons, List.append_assoc]
    refine .cons (r := ss.flatten ++ (e ++ r)) ?_ ?_ ih
    · unfold sepBy
      rw [andThen_some (values_row N hx _), andThen_some (many_of_steps (.nil (noMoreRow N hl he hr)))]
      rfl
    · have := List.length_pos_iff.mpr (rowLine_ne N hx)
      simp only [List.length_append]; omega

theorem rows_reads {l : List (List K)} {s : List Char} (h : Several (RowLine N) l s) {e : List Char} (he : MaybeEmptyLine e)
    {r : List Char} (hr : Stop N r) : rows N.num (s ++ (e ++ r)) = .ok (some (l, e ++ r)) := by
  obtain ⟨hne, ss, hss, rfl⟩ := h
  cases l with
  | nil => exact absurd rfl hne
  | cons x l =>
    unfold rows
    rw [andThen_some (plus_of_steps (steps_rows N hss he hr))]
    show Except.ok (some ((([x] :: l.map (fun x => [x])).flatten), _)) = _
    have : ∀ l : List (List K), (l.map (fun x => [x])).flatten = l := by
      intro l; induction l with
      | nil => rfl
      | cons a l ih => simp [ih]
    simp [this]

theorem rows_none {r : List Char} (h : values N.num r = .ok none) : rows N.num r = .ok none := by
  unfold rows sepBy; rw [andThen_none (plus_none (andThen_none h))]

theorem opt_emptyLine {e : List Char} (he : MaybeEmptyLine e) {r : List Char} (hr : eol r = .ok none) : opt eol (e ++ r) = .ok (some ((), r)) := by
  rcases he with rfl | he
  · exact opt_none hr
  · exact opt_some (endOfLine_eol he r)

theorem matrix_reads {m : MatrixSection K} {s : List Char} (h : IsMatrix N m s) {r : List Char} (hr : Stop N r) :
    matrixSection N.num (s ++ r) = .ok (some (m, r)) := by
  obtain ⟨s1, e, s2, e', h1, he, h2, he', rfl⟩ := h
  unfold matrixSection
  have e1 : s1 ++ (e ++ (s2 ++ e')) ++ r = s1 ++ (e ++ (s2 ++ (e' ++ r))) := by simp
  rw [e1, andThen_some (header_reads h1 _), andThen_some (endOfLine_eol he _), andThen_some (rows_reads N h2 he' hr),
    andThen_some (opt_emptyLine he' hr.2)]
  rfl

theorem isMatrix_stop {m : MatrixSection K} {s : List Char} (h : IsMatrix N m s) (r : List Char) : Stop N (s ++ r) := by
  obtain ⟨s1, e, s2, e', h1, he, h2, he', rfl⟩ := h
  rw [List.append_assoc]; exact stop_header N h1 _

theorem isMatrix_ne {m : MatrixSection K} {s : List Char} (h : IsMatrix N m s) : s ≠ [] := by
  obtain ⟨s1, e, s2, e', h1, he, h2, he', rfl⟩ := h
  simp [header_ne h1]

theorem stop_matrices {l : List (MatrixSection K)} {ss : List (List Char)} (h : List.Forall₂ (IsMatrix N) l ss) {r : List Char} (hr : Stop N r) :
    Stop N (ss.flatten ++ r) := by
  cases h with
  | nil => exact hr
  | cons h _ => rw [List.flatten_cons, List.append_assoc]; exact isMatrix_stop N h _

theorem steps_matrices {l : List (MatrixSection K)} {ss : List (List Char)} (h : List.Forall₂ (IsMatrix N) l ss) {r : List Char} (hr : Stop N r)
    (hn : matrixSection N.num r = .ok none) : Steps (matrixSection N.num) l (ss.flatten ++ r) r := by
  induction h with
  | nil => exact .nil hn
  | @cons x s l ss hx hl ih =>
    rw [List.flatten_cons, List.append_assoc]
    refine .cons (matrix_reads N hx (stop_matrices N hl hr)) ?_ ih
    have := List.length_pos_iff.mpr (isMatrix_ne N hx)
    simp only [List.length_append]; omega

theorem section_reads {m : SectionWithId K} {s : List Char} (h : IsSectionWithId N m s) {r : List Char} (hr : Stop N r) :
    sectionWithId N.num (s ++ r) = .ok (some (m, r)) := by
  obtain ⟨s1, x, e, s2, h1, hx, he, h2, rfl⟩ := h
  unfold sectionWithId
  have e1 : s1 ++ (x ++ (e ++ s2)) ++ r = s1 ++ (x ++ (e ++ (s2 ++ ([] ++ r)))) := by simp
  rw [e1, andThen_some (header_reads h1 _), andThen_some (double_num N hx (sep_eol he _)), andThen_some (endOfLine_eol he _),
    andThen_some (rows_reads N h2 (.inl rfl) hr)]
  rfl

theorem isSection_stop {m : SectionWithId K} {s : List Char} (h : IsSectionWithId N m s) (r : List Char) : Stop N (s ++ r) := by
  obtain ⟨s1, x, e, s2, h1, hx, he, h2, rfl⟩ := h
  rw [List.append_assoc]; exact stop_header N h1 _

theorem isSection_ne {m : SectionWithId K} {s : List Char} (h : IsSectionWithId N m s) : s ≠ [] := by
  obtain ⟨s1, x, e, s2, h1, hx, he, h2, rfl⟩ := h
  simp [header_ne h1]

theorem stop_sections {l : List (SectionWithId K)} {ss : List (List Char)} (h : List.Forall₂ (IsSectionWithId N) l ss) {r : List Char} (hr : Stop N r) :
    Stop N (ss.flatten ++ r) := by
  cases h with
  | nil => exact hr
  | cons h _ => rw [List.flatten_cons, List.append_assoc]; exact isSection_stop N h _

theorem steps_sections {l : List (SectionWithId K)} {ss : List (List Char)} (h : List.Forall₂ (IsSectionWithId N) l ss) {r : List Char} (hr : Stop N r)
    (hn : sectionWithId N.num r = .ok none) : Steps (sectionWithId N.num) l (ss.flatten ++ r) r := by
  induction h with
  | nil => exact .nil hn
  | @cons x s l ss hx hl ih =>
    rw [List.flatten_cons, List.append_assoc]
    refine .cons (section_reads N hx (stop_sections N hl hr)) ?_ ih
    have := List.length_pos_iff.mpr (isSection_ne N hx)
    simp only [List.length_append]; omega

/-! ### Vectors -/

theorem steps_lines {l : List K} {ss : List (List Char)} (h : List.Forall₂ (NumLine N) l ss) {r : List Char} (hr : double N.num r = .ok none) :
    Steps (andThen (double N.num) (fun x => andThen eol (fun _ => give x))) l (ss.flatten ++ r) r := by
  induction h with
  | nil => exact .nil (andThen_none hr)
  | @cons x s l ss hx hl ih =>
    obtain ⟨s1, e, h1, he, rfl⟩ := hx
    rw [List.flatten_cons]
    have e1 : s1 ++ e ++ ss.flatten ++ r = s1 ++ (e ++ (ss.flatten ++ r)) := by simp
    rw [e1]
    refine .cons (r := ss.flatten ++ r) ?_ ?_ ih
    · rw [andThen_some (double_num N h1 (sep_eol he _)), andThen_some (endOfLine_eol he _)]; rfl
    · have := List.length_pos_iff.mpr (isNum_ne N h1)
      simp only [List.length_append]; omega

theorem numLine_not_row {l : List K} {s : List Char} (h : Several (NumLine N) l s) (r : List Char) : values N.num (s ++ r) = .ok none := by
  obtain ⟨hne, ss, hss, rfl⟩ := h
  cases hss with
  | nil => exact absurd rfl hne
  | @cons x s l ss hx hl =>
    obtain ⟨s1, e, h1, he, rfl⟩ := hx
    have e1 : ((s1 ++ e) :: ss).flatten ++ r = s1 ++ (e ++ (ss.flatten ++ r)) := by simp
    unfold values
    rw [e1, andThen_some (double_num N h1 (sep_eol he _)), andThen_none (plus_none (double_eol N he _))]

theorem rows_not_lines {l : List (List K)} {s : List Char} (h : Several (RowLine N) l s) (r : List Char) :
    andThen (double N.num) (fun x => andThen eol (fun _ => give x)) (s ++ r) = .ok none := by
  obtain ⟨hne, ss, hss, rfl⟩ := h
  cases hss with
  | nil => exact absurd rfl hne
  | @cons x s l ss hx hl =>
    obtain ⟨x, y, l', s1, tt, e, rfl, hx, htt, he, rfl⟩ := hx
    have e1 : ((s1 ++ (tt.flatten ++ e)) :: ss).flatten ++ r = s1 ++ (tt.flatten ++ (e ++ (ss.flatten ++ r))) := by simp
    rw [e1, andThen_some (double_num N hx (sep_nexts N htt he _))]
    cases htt with
    | @cons _ t _ tt hy _ =>
      rw [List.flatten_cons, List.append_assoc]
      exact andThen_none (eol_num N (nextNum_isNum N hy) _)

/-! ### Elements of the file -/

theorem several_first_matrix {l : List (MatrixSection K)} {s : List Char} (h : Several (IsMatrix N) l s) (r : List Char) : Stop N (s ++ r) := by
  obtain ⟨hne, ss, hss, rfl⟩ := h
  cases hss with
  | nil => exact absurd rfl hne
  | cons h _ => rw [List.flatten_cons, List.append_assoc]; exact isMatrix_stop N h _

theorem several_first_section {l : List (SectionWithId K)} {s : List Char} (h : Several (IsSectionWithId N) l s) (r : List Char) : Stop N (s ++ r) := by
  obtain ⟨hne, ss, hss, rfl⟩ := h
  cases hss with
  | nil => exact absurd rfl hne
  | cons h _ => rw [List.flatten_cons, List.append_assoc]; exact isSection_stop N h _

/-- The part of an element after its header: what the alternatives see. -/
theorem item_header {i : Item K} {s : List Char} (h : IsItem N i s) : ∃ n s1 s2, Header n s1 ∧ s = s1 ++ s2 := by
  cases h with
  | stringKey h => exact ⟨_, _, _, h, rfl⟩
  | valueKey h => exact ⟨_, _, _, h, rfl⟩
  | vector h => exact ⟨_, _, _, h, rfl⟩
  | matrix h => obtain ⟨s1, e, s2, e', h1, -, -, -, rfl⟩ := h; exact ⟨_, _, _, h1, rfl⟩
  | list h => exact ⟨_, _, _, h, rfl⟩
  | listWithId h => exact ⟨_, _, _, h, rfl⟩

theorem item_stop {i : Item K} {s : List Char} (h : IsItem N i s) (r : List Char) : Stop N (s ++ r) := by
  obtain ⟨n, s1, s2, hn, rfl⟩ := item_header N h
  rw [List.append_assoc]; exact stop_header N hn _

theorem item_ne {i : Item K} {s : List Char} (h : IsItem N i s) : s ≠ [] := by
  obtain ⟨n, s1, s2, hn, rfl⟩ := item_header N h
  simp [header_ne hn]

/-- The value of a string key is neither the end of a line nor a number. -/
theorem name_first {v : String} (hv : Name v.toList) {b : List Char} (hb : Blanks b) (r : List Char) :
    eol (b ++ (v.toList ++ r)) = .ok none ∧ skip (b ++ (v.toList ++ r)) = v.toList ++ r := by
  obtain ⟨c, w, r', hvc, hc, -⟩ := hv
  have e : skip (b ++ (v.toList ++ r)) = v.toList ++ r := by
    rw [skip_blanks hb, hvc, List.cons_append, skip_cons (letter_not_blank hc)]
  refine ⟨?_, e⟩
  unfold eol
  rw [e, hvc, List.cons_append, eolRaw_none]
  · rfl
  · rintro rfl; rcases hc with h | h <;> revert h <;> decide
  · rintro rfl; rcases hc with h | h <;> revert h <;> decide

theorem item_not_matrix {i : Item K} {s : List Char} (h : IsItem N i s) (hi : ¬ Item.isMatrix i) (r : List Char) :
    matrixSection N.num (s ++ r) = .ok none := by
  unfold matrixSection
  cases h with
  | stringKey h hb hv _ he =>
    rw [List.append_assoc, andThen_some (header_reads h _), List.append_assoc, List.append_assoc]
    exact andThen_none (name_first hv hb _).1
  | valueKey h hx he =>
    rw [List.append_assoc, andThen_some (header_reads h _), List.append_assoc]
    exact andThen_none (eol_num N hx _)
  | vector h he hl he' =>
    rw [List.append_assoc, andThen_some (header_reads h _), List.append_assoc, andThen_some (endOfLine_eol he _), List.append_assoc]
    exact andThen_none (rows_none N (numLine_not_row N hl _))
  | matrix h => exact absurd trivial hi
  | list h he hl =>
    rw [List.append_assoc, andThen_some (header_reads h _), List.append_assoc, andThen_some (endOfLine_eol he _)]
    exact andThen_none (rows_none N (values_none N (several_first_matrix N hl _).1))
  | listWithId h he hl =>
    rw [List.append_assoc, andThen_some (header_reads h _), List.append_assoc, andThen_some (endOfLine_eol he _)]
    exact andThen_none (rows_none N (values_none N (several_first_section N hl _).1))

theorem item_not_section {i : Item K} {s : List Char} (h : IsItem N i s) {r : List Char} (hr : Stop N r) :
    sectionWithId N.num (s ++ r) = .ok none := by
  unfold sectionWithId
  cases h with
  | stringKey h hb hv hn he =>
    rw [List.append_assoc, andThen_some (header_reads h _), List.append_assoc, List.append_assoc]
    refine andThen_none ?_
    unfold double
    rw [(name_first hv hb _).2, hn]
  | valueKey h hx he =>
    rw [List.append_assoc, andThen_some (header_reads h _), List.append_assoc, andThen_some (double_num N hx (sep_eol he _)),
      andThen_some (endOfLine_eol he _)]
    exact andThen_none (rows_none N (values_none N hr.1))
  | vector h he hl he' =>
    rw [List.append_assoc, andThen_some (header_reads h _), List.append_assoc]
    exact andThen_none (double_eol N he _)
  | matrix h =>
    obtain ⟨s1, e, s2, e', h, he, -, -, rfl⟩ := h
    rw [List.append_assoc, andThen_some (header_reads h _), List.append_assoc]
    exact andThen_none (double_eol N he _)
  | list h he hl =>
    rw [List.append_assoc, andThen_some (header_reads h _), List.append_assoc]
    exact andThen_none (double_eol N he _)
  | listWithId h he hl =>
    rw [List.append_assoc, andThen_some (header_reads h _), List.append_assoc]
    exact andThen_none (double_eol N he _)

/-- One element is read as it is written, whatever follows. -/
theorem ast_item {i : Item K} {s : List Char} (h : IsItem N i s) {r : List Char} (hr : Stop N r)
    (hm : Item.isList i → matrixSection N.num r = .ok none) (hs : sectionWithId N.num r = .ok none) :
    ast N.num (s ++ r) = .ok (some (i, r)) := by
  unfold ast
  -- a section is not a key
  have noString : ∀ {n : String} {s1 : List Char}, Header n s1 → ∀ t, str t = .ok none → stringKey (K := K) (s1 ++ t) = .ok none := by
    intro n s1 h t ht; unfold stringKey; rw [andThen_some (header_reads h _)]; exact andThen_none ht
  have noValue : ∀ {n : String} {s1 : List Char}, Header n s1 → ∀ t, double N.num t = .ok none → valueKey N.num (s1 ++ t) = .ok none := by
    intro n s1 h t ht; unfold valueKey; rw [andThen_some (header_reads h _)]; exact andThen_none ht
  have noVector : ∀ {n : String} {s1 : List Char}, Header n s1 → ∀ e t, EndOfLine e →
      andThen (double N.num) (fun x => andThen eol (fun _ => give x)) t = .ok none → vectorSection N.num (s1 ++ (e ++ t)) = .ok none := by
    intro n s1 h e t he ht
    unfold vectorSection
    rw [andThen_some (header_reads h _), andThen_some (endOfLine_eol he _)]
    exact andThen_none (plus_none ht)
  have noMatrix : ∀ {n : String} {s1 : List Char}, Header n s1 → ∀ e t, EndOfLine e → double N.num t = .ok none →
      andThen (matrixSection N.num) (fun m => give (Item.matrix m)) (s1 ++ (e ++ t)) = .ok none := by
    intro n s1 h e t he ht
    refine andThen_none ?_
    unfold matrixSection
    rw [andThen_some (header_reads h _), andThen_some (endOfLine_eol he _)]
    exact andThen_none (rows_none N (values_none N ht))
  cases h with
  | @stringKey n v s1 b e h hb hv hn he =>
    have e1 : s1 ++ (b ++ (v.toList ++ e)) ++ r = s1 ++ (b ++ (v.toList ++ (e ++ r))) := by simp
    rw [e1]
    refine orElse_some ?_
    unfold stringKey
    rw [andThen_some (header_reads h _), andThen_some (str_name hv hb (nameEnd_eol he r)), andThen_some (opt_some (endOfLine_eol he r))]
    rfl
  | @valueKey n x s1 s2 e h hx he =>
    have e1 : s1 ++ (s2 ++ e) ++ r = s1 ++ (s2 ++ (e ++ r)) := by simp
    rw [e1, orElse_none (noString h _ (str_num N hx _))]
    refine orElse_some ?_
    unfold valueKey
    rw [andThen_some (header_reads h _), andThen_some (double_num N hx (sep_eol he _)), andThen_some (opt_some (endOfLine_eol he r))]
    rfl
  | @vector n l s1 e s2 e' h he hl he' =>
    have e1 : s1 ++ (e ++ (s2 ++ e')) ++ r = s1 ++ (e ++ (s2 ++ (e' ++ r))) := by simp
    rw [e1, orElse_none (noString h _ (str_eol he _)), orElse_none (noValue h _ (double_eol N he _))]
    refine orElse_some ?_
    obtain ⟨hne, ss, hss, rfl⟩ := hl
    cases l with
    | nil => exact absurd rfl hne
    | cons x l =>
      unfold vectorSection
      rw [andThen_some (header_reads h _), andThen_some (endOfLine_eol he _),
        andThen_some (plus_of_steps (steps_lines N hss (noRow N he' hr))), andThen_some (opt_emptyLine he' hr.2)]
      rfl
  | @matrix m s h =>
    have hread := matrix_reads N h hr
    obtain ⟨s1, e, s2, e', h1, he, h2, he', rfl⟩ := h
    have e1 : s1 ++ (e ++ (s2 ++ e')) ++ r = s1 ++ (e ++ (s2 ++ (e' ++ r))) := by simp
    rw [e1] at hread
    rw [e1, orElse_none (noString h1 _ (str_eol he _)), orElse_none (noValue h1 _ (double_eol N he _)),
      orElse_none (noVector h1 _ _ he (rows_not_lines N h2 _))]
    refine orElse_some ?_
    rw [andThen_some hread]
    rfl
  | @list l s1 e s2 h he hl =>
    have e1 : s1 ++ (e ++ s2) ++ r = s1 ++ (e ++ (s2 ++ r)) := by simp
    have hf := (several_first_matrix N hl r).1
    rw [e1, orElse_none (noString h _ (str_eol he _)), orElse_none (noValue h _ (double_eol N he _)),
      orElse_none (noVector h _ _ he (andThen_none hf)), orElse_none (noMatrix h _ _ he hf)]
    refine orElse_some ?_
    obtain ⟨hne, ss, hss, rfl⟩ := hl
    obtain ⟨n, l⟩ := l
    cases l with
    | nil => exact absurd rfl hne
    | cons x l =>
      unfold listOfMatrixSections
      rw [andThen_some (header_reads h _), andThen_some (endOfLine_eol he _),
        andThen_some (plus_of_steps (steps_matrices N hss hr (hm trivial))), andThen_some (opt_none hr.2)]
      rfl
  | @listWithId l s1 e s2 h he hl =>
    have e1 : s1 ++ (e ++ s2) ++ r = s1 ++ (e ++ (s2 ++ r)) := by simp
    have hf := (several_first_section N hl r).1
    have hnl : listOfMatrixSections N.num (s1 ++ (e ++ (s2 ++ r))) = .ok none := by
      unfold listOfMatrixSections
      rw [andThen_some (header_reads h _), andThen_some (endOfLine_eol he _)]
      refine andThen_none (plus_none ?_)
      obtain ⟨hne, ss, hss, rfl⟩ := hl
      generalize l.sections = ls at hne hss
      cases hss with
      | nil => exact absurd rfl hne
      | @cons m t ms tt hx _ =>
        obtain ⟨t1, x, e', t2, h1, hx, he', h2, rfl⟩ := hx
        unfold matrixSection
        have e2 : ((t1 ++ (x ++ (e' ++ t2))) :: tt).flatten ++ r = t1 ++ (x ++ (e' ++ (t2 ++ (tt.flatten ++ r)))) := by simp
        rw [e2, andThen_some (header_reads h1 _)]
        exact andThen_none (eol_num N hx _)
    rw [e1, orElse_none (noString h _ (str_eol he _)), orElse_none (noValue h _ (double_eol N he _)),
      orElse_none (noVector h _ _ he (andThen_none hf)), orElse_none (noMatrix h _ _ he hf), orElse_none hnl]
    obtain ⟨hne, ss, hss, rfl⟩ := hl
    obtain ⟨n, l⟩ := l
    cases l with
    | nil => exact absurd rfl hne
    | cons x l =>
      unfold listWithId
      rw [andThen_some (header_reads h _), andThen_some (endOfLine_eol he _),
        andThen_some (plus_of_steps (steps_sections N hss hr hs))]
      rfl

/-! ### The file -/

/-- A text that is not the beginning of an HDB file: its first character is neither a bracket, nor a blank, nor the end of
a line, and it does not begin with a number. -/
def NotHdb (N : Numbers K) (g : List Char) : Prop :=
  g = [] ∨ ∃ c r, g = c :: r ∧ c ≠ '[' ∧ c ≠ ' ' ∧ c ≠ '\t' ∧ c ≠ '\n' ∧ c ≠ '\r' ∧ N.num g = none

theorem notHdb_stop {g : List Char} (h : NotHdb N g) : Stop N g ∧ header g = .ok none := by
  rcases h with rfl | ⟨c, r, rfl, h1, h2, h3, h4, h5, hn⟩
  · refine ⟨⟨?_, rfl⟩, rfl⟩
    show Except.ok (N.num []) = _
    rw [N.empty]
  · have hb : isBlank c = false := by simp [isBlank, h2, h3]
    refine ⟨⟨?_, ?_⟩, ?_⟩
    · unfold double; rw [skip_cons hb, hn]
    · unfold eol; rw [skip_cons hb, eolRaw_none h5 h4]; rfl
    · unfold header
      refine andThen_none ?_
      unfold lit
      rw [skip_cons hb]
      simp [h1]

theorem file_steps {l : List (Item K)} {s : List Char} (h : IsFile N l s) {g : List Char} (hg : NotHdb N g) :
    Steps (ast N.num) l (s ++ g) g ∧ Stop N (s ++ g) ∧ sectionWithId N.num (s ++ g) = .ok none ∧
      ((∀ j l', l = j :: l' → ¬ Item.isMatrix j) → matrixSection N.num (s ++ g) = .ok none) := by
  obtain ⟨hstop, hhead⟩ := notHdb_stop N hg
  induction h with
  | nil =>
    have hsec : sectionWithId N.num g = .ok none := by unfold sectionWithId; exact andThen_none hhead
    have hmat : matrixSection N.num g = .ok none := by unfold matrixSection; exact andThen_none hhead
    refine ⟨.nil ?_, hstop, hsec, fun _ => hmat⟩
    unfold ast
    rw [List.nil_append, orElse_none (by unfold stringKey; exact andThen_none hhead), orElse_none (by unfold valueKey; exact andThen_none hhead),
      orElse_none (by unfold vectorSection; exact andThen_none hhead), orElse_none (andThen_none hmat),
      orElse_none (by unfold listOfMatrixSections; exact andThen_none hhead)]
    unfold listWithId
    exact andThen_none hhead
  | @cons i l s1 s2 hi _ hc ih =>
    obtain ⟨h1, h2, h3, h4⟩ := ih
    rw [List.append_assoc]
    refine ⟨.cons (ast_item N hi h2 ?_ h3) ?_ h1, item_stop N hi _, item_not_section N hi h2, ?_⟩
    · intro hl
      exact h4 (fun j l' hj hm => hc j l' hj ⟨hl, hm⟩)
    · have := List.length_pos_iff.mpr (item_ne N hi)
      simp only [List.length_append]; omega
    · intro hn
      exact item_not_matrix N hi (hn i l rfl) _

/-- What each kind of element of the file becomes. -/
def asString : Item K → Option (String × String)
  | .stringKey h v => some (h, v)
  | _ => none
def asValue : Item K → Option (String × K)
  | .valueKey h v => some (h, v)
  | _ => none
def asVector : Item K → Option (String × List K)
  | .vector h v => some (h, v)
  | _ => none
def asMatrix : Item K → Option (MatrixSection K)
  | .matrix m => some m
  | _ => none
def asList : Item K → Option (ListOfMatrixSections K)
  | .list l => some l
  | _ => none
def asListWithId : Item K → Option (ListOfMatrixSectionsWithId K)
  | .listWithId l => some l
  | _ => none

theorem collect (l : List (Item K)) (t : Ast K) : l.foldl visit t =
    ⟨t.stringKeys ++ l.filterMap asString, t.valueKeys ++ l.filterMap asValue, t.vectors ++ l.filterMap asVector,
      t.matrices ++ l.filterMap asMatrix, t.lists ++ l.filterMap asList, t.listsWithId ++ l.filterMap asListWithId⟩ := by
  induction l generalizing t with
  | nil => simp
  | cons i l ih =>
    rw [List.foldl_cons, ih]
    cases i <;> simp [visit, List.filterMap_cons, asString, asValue, asVector, asMatrix, asList, asListWithId]

/-- **C158** (refuted) What follows the part of the file that has the format is silently ignored. -/
theorem hdb_rest_ignored {l : List (Item K)} {s : List Char} (h : IsFile N l s) {g : List Char} (hg : NotHdb N g) :
    parseHdb N.num (s ++ g) = .ok ⟨l.filterMap asString, l.filterMap asValue, l.filterMap asVector, l.filterMap asMatrix,
      l.filterMap asList, l.filterMap asListWithId⟩ := by
  unfold parseHdb
  rw [many_of_steps (file_steps N h hg).1]
  simp only [collect, List.nil_append]

/-- **C157** A file that has the format is read as it is written: every element is found, with its name and its
numbers, in the order of the file, whatever the blanks, the ends of lines (LF or CR LF) and the empty lines between sections. -/
theorem hdb_text {l : List (Item K)} {s : List Char} (h : IsFile N l s) :
    parseHdb N.num s = .ok ⟨l.filterMap asString, l.filterMap asValue, l.filterMap asVector, l.filterMap asMatrix,
      l.filterMap asList, l.filterMap asListWithId⟩ := by
  have := hdb_rest_ignored N h (g := []) (.inl rfl)
  rwa [List.append_nil] at this

/-- **C157** A text is the text of one content only. -/
theorem hdb_unambiguous {l l' : List (Item K)} {s : List Char} (h : IsFile N l s) (h' : IsFile N l' s) : l = l' := by
  have e := many_of_steps (file_steps N h (g := []) (.inl rfl)).1
  have e' := many_of_steps (file_steps N h' (g := []) (.inl rfl)).1
  rw [e] at e'
  cases e'
  rfl

/-! ### A concrete reader of numbers: digits -/

/-- Reads digits. -/
def digits (s : List Char) : Option (Nat × List Char) :=
  if (s.takeWhile Char.isDigit).isEmpty then none
  else some ((s.takeWhile Char.isDigit).foldl (fun n c => 10 * n + (c.toNat - 48)) 0, s.dropWhile Char.isDigit)

def naturals : Numbers Nat where
  num := digits
  Writes x t := t ≠ [] ∧ (∀ c ∈ t, c.isDigit = true) ∧ x = t.foldl (fun n c => 10 * n + (c.toNat - 48)) 0
  first := by
    rintro x t ⟨hne, hd, -⟩
    cases t with
    | nil => exact absurd rfl hne
    | cons c r => exact ⟨c, r, rfl, .inl (hd c (by simp))⟩
  reads := by
    rintro x t r ⟨hne, hd, rfl⟩ hr
    have e := split_while Char.isDigit t r hd (by
      intro c r' h
      rcases hr with rfl | ⟨d, r'', rfl, h'⟩
      · cases h
      · cases h; rcases h' with rfl | rfl | rfl | rfl <;> decide)
    unfold digits
    rw [e.1, e.2, if_neg (by simp [hne])]
  empty := by decide
  fails := by
    intro c r h
    unfold digits
    rcases h with rfl | rfl | rfl <;> simp

def demo : List (Item Nat) := [.stringKey "SOFT" "AQUA+", .valueKey "FORWARD SPEED" 7, .vector "List_calculated_periods" [1, 20],
  .matrix ⟨"Mass", [[1, 2], [3, 4]]⟩, .list ⟨"Added_mass_Radiation_Damping", [⟨"ADDED_MASS_LINE_1", [[1, 2, 3]]⟩, ⟨"LINE_2", [[5, 6], [7, 8]]⟩]⟩,
  .listWithId ⟨"DIFFRACTION", [⟨"INCIDENCE", 15, [[1, 2]]⟩, ⟨"INCIDENCE", 30, [[3, 4]]⟩]⟩]

def demoText : String := " [SOFT] AQUA+\n[FORWARD SPEED]   7 \n[List_calculated_periods]\n 1\n 20\n\n[Mass]\n 1 2\n 3\t4\n[Added_mass_Radiation_Damping]\r\n[ADDED_MASS_LINE_1]\n1 2 3\n [LINE_2]\n5 6\n7 8\n[DIFFRACTION]\n[INCIDENCE] 15\n1 2\n[INCIDENCE] 30\n3 4\n"

def isOk (r : Except Err (Ast Nat)) (p : Ast Nat → Bool) : Bool :=
  match r with
  | .ok t => p t
  | .error _ => false

example : isOk (parseHdb digits demoText.toList) (fun t => t = ⟨demo.filterMap asString, demo.filterMap asValue, demo.filterMap asVector,
    demo.filterMap asMatrix, demo.filterMap asList, demo.filterMap asListWithId⟩) = true := by decide +kernel

theorem plainHeader (b : List Char) (c : Char) (w : List Char) (h : String) (hb : ∀ d ∈ b, d = ' ' ∨ d = '\t') (hh : h.toList = c :: w)
    (hc : isFirst c = true) (hw : w ≠ []) (hws : ∀ d ∈ w, isWord d = true) : Header h (b ++ '[' :: (h.toList ++ [']'])) := by
  refine ⟨b, [], [], hb, by simp [Blanks], by simp [Blanks], ⟨c, w, [], by simpa using hh, ?_, hw, ?_, .nil⟩, by simp⟩
  · simpa [isFirst, Letter] using hc
  · intro d hd
    have := hws d hd
    simp only [isWord, Bool.or_eq_true, beq_iff_eq] at this
    rcases this with ((h | h) | h) | h
    · exact .inl h
    · exact .inr (.inl h)
    · exact .inr (.inr (.inl h))
    · exact .inr (.inr (.inr h))

theorem endLF : EndOfLine ['\n'] := ⟨[], by simp [Blanks], .inl rfl⟩
theorem endCRLF : EndOfLine ['\r', '\n'] := ⟨[], by simp [Blanks], .inr rfl⟩
theorem endBlank : EndOfLine [' ', '\n'] := ⟨[' '], by simp [Blanks], .inl rfl⟩

theorem num_of (b t : List Char) (x : Nat) (hb : ∀ d ∈ b, d = ' ' ∨ d = '\t') (ht : t ≠ []) (hd : ∀ c ∈ t, c.isDigit = true)
    (hx : x = t.foldl (fun n c => 10 * n + (c.toNat - 48)) 0) : IsNum naturals x (b ++ t) := ⟨b, t, hb, ⟨ht, hd, hx⟩, rfl⟩

theorem next_of (b t : List Char) (x : Nat) (hb : ∀ d ∈ b, d = ' ' ∨ d = '\t') (hb' : b ≠ []) (ht : t ≠ []) (hd : ∀ c ∈ t, c.isDigit = true)
    (hx : x = t.foldl (fun n c => 10 * n + (c.toNat - 48)) 0) : NextNum naturals x (b ++ t) := ⟨b, t, hb, hb', ⟨ht, hd, hx⟩, rfl⟩

/-- The text of a file with the six kinds of elements has the format. -/
theorem demo_isFile : IsFile naturals
    [.stringKey "SOFT" "AQUA+", .valueKey "SPEED" 7, .vector "Periods" [1, 20], .matrix ⟨"Mass", [[1, 2]]⟩,
      .list ⟨"Added", [⟨"LINE", [[1, 2], [3, 4]]⟩]⟩, .listWithId ⟨"Diff", [⟨"INCIDENCE", 15, [[5, 6]]⟩]⟩]
    " [SOFT] AQUA+\n[SPEED]   7 \n[Periods]\n 1\n20\n\n[Mass]\r\n 1 2\n[Added]\n[LINE]\n1 2\n3\t4\n[Diff]\n[INCIDENCE] 15\n5 6\n".toList := by
  have row : ∀ (a b : Char) (x y : Nat) (sp : Char), (sp = ' ' ∨ sp = '\t') → a.isDigit = true → b.isDigit = true → x = a.toNat - 48 → y = b.toNat - 48 →
      RowLine naturals [x, y] [a, sp, b, '\n'] := by
    intro a b x y sp hsp ha hb hx hy
    refine ⟨x, y, [], [a], [[sp, b]], ['\n'], rfl, num_of [] [a] x (by simp) (by simp) (by simpa using ha) (by simpa using hx),
      .cons (next_of [sp] [b] y (by simpa using hsp) (by simp) (by simp) (by simpa using hb) (by simpa using hy)) .nil, endLF, rfl⟩
  have row' : RowLine naturals [1, 2] [' ', '1', ' ', '2', '\n'] :=
    ⟨1, 2, [], [' ', '1'], [[' ', '2']], ['\n'], rfl, num_of [' '] ['1'] 1 (by simp) (by simp) (by decide) (by decide),
      .cons (next_of [' '] ['2'] 2 (by simp) (by simp) (by simp) (by decide) (by decide)) .nil, endLF, rfl⟩
  have h1 : IsItem naturals (.stringKey "SOFT" "AQUA+") _ := .stringKey (b := [' '])
    (plainHeader [' '] 'S' ['O', 'F', 'T'] "SOFT" (by simp) (by decide) (by decide) (by decide) (by decide)) (by simp [Blanks])
    ⟨'A', ['Q', 'U', 'A', '+'], [], by decide, .inr (by decide), by decide, by
      intro d hd
      fin_cases hd
      · exact .inr (.inr (.inr (by decide)))
      · exact .inr (.inr (.inr (by decide)))
      · exact .inr (.inr (.inr (by decide)))
      · exact .inr (.inr (.inl rfl)), .nil⟩ (by intro r; rw [show "AQUA+".toList = ['A', 'Q', 'U', 'A', '+'] from by decide]; rfl) endLF
  have h2 : IsItem naturals (.valueKey "SPEED" 7) _ := .valueKey
    (plainHeader [] 'S' ['P', 'E', 'E', 'D'] "SPEED" (by simp) (by decide) (by decide) (by decide) (by decide))
    (num_of [' ', ' ', ' '] ['7'] 7 (by simp) (by simp) (by decide) (by decide)) endBlank
  have h3 : IsItem naturals (.vector "Periods" [1, 20]) _ := .vector
    (plainHeader [] 'P' ['e', 'r', 'i', 'o', 'd', 's'] "Periods" (by simp) (by decide) (by decide) (by decide) (by decide)) endLF
    ⟨by simp, _, .cons ⟨_, _, num_of [' '] ['1'] 1 (by simp) (by simp) (by decide) (by decide), endLF, rfl⟩
      (.cons ⟨_, _, num_of [] ['2', '0'] 20 (by simp) (by simp) (by decide) (by decide), endLF, rfl⟩ .nil), rfl⟩ (.inr endLF)
  have h4 : IsItem naturals (.matrix ⟨"Mass", [[1, 2]]⟩) _ := .matrix ⟨_, _, _, [],
    plainHeader [] 'M' ['a', 's', 's'] "Mass" (by simp) (by decide) (by decide) (by decide) (by decide), endCRLF,
    ⟨by simp, _, .cons row' .nil, rfl⟩, .inl rfl, rfl⟩
  have h5 : IsItem naturals (.list ⟨"Added", [⟨"LINE", [[1, 2], [3, 4]]⟩]⟩) _ := .list
    (plainHeader [] 'A' ['d', 'd', 'e', 'd'] "Added" (by simp) (by decide) (by decide) (by decide) (by decide)) endLF
    ⟨by simp, _, .cons ⟨_, _, _, [], plainHeader [] 'L' ['I', 'N', 'E'] "LINE" (by simp) (by decide) (by decide) (by decide) (by decide), endLF,
      ⟨by simp, _, .cons (row '1' '2' 1 2 ' ' (.inl rfl) (by decide) (by decide) (by decide) (by decide))
        (.cons (row '3' '4' 3 4 '\t' (.inr rfl) (by decide) (by decide) (by decide) (by decide)) .nil), rfl⟩, .inl rfl, rfl⟩ .nil, rfl⟩
  have h6 : IsItem naturals (.listWithId ⟨"Diff", [⟨"INCIDENCE", 15, [[5, 6]]⟩]⟩) _ := .listWithId
    (plainHeader [] 'D' ['i', 'f', 'f'] "Diff" (by simp) (by decide) (by decide) (by decide) (by decide)) endLF
    ⟨by simp, _, .cons ⟨_, _, _, _, plainHeader [] 'I' ['N', 'C', 'I', 'D', 'E', 'N', 'C', 'E'] "INCIDENCE" (by simp) (by decide) (by decide) (by decide) (by decide),
      num_of [' '] ['1', '5'] 15 (by simp) (by simp) (by decide) (by decide), endLF,
      ⟨by simp, _, .cons (row '5' '6' 5 6 ' ' (.inl rfl) (by decide) (by decide) (by decide) (by decide)) .nil, rfl⟩, rfl⟩ .nil, rfl⟩
  have key := IsFile.cons h1 (.cons h2 (.cons h3 (.cons h4 (.cons h5 (.cons h6 .nil (by simp)) (by
    intro j l' h; cases h; simp [Item.isMatrix])) (by intro j l' h; cases h; simp [Item.isList])) (by intro j l' h; cases h; simp [Item.isList]))
    (by intro j l' h; cases h; simp [Item.isList])) (by intro j l' h; cases h; simp [Item.isList])
  refine Eq.mp ?_ key
  congr 1

/-! ### Files that do not have the format -/

/-- **C158** (refuted) An empty line after a list of matrices with incidences: the rest of the file is ignored. -/
theorem empty_line_hides_the_rest :
    isOk (parseHdb digits "[Diff]\n[INC] 0\n1 2\n\n[SPEED] 3\n".toList) (fun t => t.valueKeys.isEmpty && t.listsWithId.length == 1) = true ∧
    isOk (parseHdb digits "[Diff]\n[INC] 0\n1 2\n[SPEED] 3\n".toList) (fun t => t.valueKeys == [("SPEED", 3)]) = true := by decide +kernel

/-- **C158** (refuted) Two empty lines between sections: the same. -/
theorem two_empty_lines_hide_the_rest :
    isOk (parseHdb digits "[Mass]\n1 2\n\n\n[SPEED] 3\n".toList) (fun t => t.valueKeys.isEmpty && t.matrices.length == 1) = true := by decide +kernel

/-- **C158** (refuted) Without end of line at the end of the file the last value of a vector is lost. -/
theorem last_value_lost :
    isOk (parseHdb digits "[Periods]\n1\n2\n3".toList) (fun t => t.vectors == [("Periods", [1, 2])]) = true := by decide +kernel

/-- **C158** (refuted) A row with a value that is not a number ends the matrix: the values before it make a row, the rest of the file is ignored. -/
theorem bad_value_truncates :
    isOk (parseHdb digits "[Mass]\n1 2 3\n4 5 x\n7 8 9\n[SPEED] 3\n".toList) (fun t => t.matrices == [⟨"Mass", [[1, 2, 3], [4, 5]]⟩] && t.valueKeys.isEmpty) = true := by
  decide +kernel

/-- **C158** (refuted) A name of one letter: the rest of the file is ignored. -/
theorem short_name_hides_the_rest :
    isOk (parseHdb digits "[T] 1\n[SPEED] 3\n".toList) (fun t => t.valueKeys.isEmpty) = true := by decide +kernel

/-- **C158** A file whose first bracket is not closed after the name is refused. -/
theorem open_bracket_refused_partial (b0 b1 b2 : List Char) (h0 : Blanks b0) (h1 : Blanks b1) (h2 : Blanks b2) (v : String) (hv : Name v.toList)
    (c : Char) (r : List Char) (hw : isWord c = false) (hb : isBlank c = false) (hc : c ≠ ']') :
    parseHdb N.num (b0 ++ '[' :: (b1 ++ (v.toList ++ (b2 ++ c :: r)))) = .error (.throw "expectation_failure") := by
  have e1 : lit '[' (b0 ++ '[' :: (b1 ++ (v.toList ++ (b2 ++ c :: r)))) = .ok (some ((), b1 ++ (v.toList ++ (b2 ++ c :: r)))) := by
    unfold lit
    rw [skip_blanks h0, skip_cons (by decide)]
    simp
  have e2 : lit ']' (b2 ++ c :: r) = .ok none := by
    unfold lit
    rw [skip_blanks h2, skip_cons hb]
    simp [hc]
  have e3 : header (b0 ++ '[' :: (b1 ++ (v.toList ++ (b2 ++ c :: r)))) = .error (.throw "expectation_failure") := by
    unfold header
    rw [andThen_some e1, andThen_some (str_name hv h1 ⟨b2, c, r, h2, hw, hb, rfl⟩)]
    simp only [e2]
  have e4 : ast N.num (b0 ++ '[' :: (b1 ++ (v.toList ++ (b2 ++ c :: r)))) = .error (.throw "expectation_failure") := by
    simp only [ast, orElse, stringKey, andThen, e3]
  unfold parseHdb many
  rw [show (b0 ++ '[' :: (b1 ++ (v.toList ++ (b2 ++ c :: r)))).length = (b0.length + (b1 ++ (v.toList ++ (b2 ++ c :: r))).length) + 1 from by
    simp only [List.length_append, List.length_cons]; omega]
  simp only [manyN, e4]

example : (match parseHdb digits "[SPEED 3\n".toList with | .error (.throw _) => true | _ => false) = true := by decide +kernel

end Xdyn.Hdb

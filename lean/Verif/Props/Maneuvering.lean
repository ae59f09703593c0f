/-
C59, C60, C61: maneuvering expressions.
-/
import Mathlib.Tactic.NormNum
import Mathlib.Tactic.Positivity
import Mathlib.Tactic.Linarith
import Verif.Lemmas.Maneuvering
import Verif.Model.ManeuveringTmax

namespace Xdyn.Maneuvering
open Spec

/-! ## C59 -/

theorem callNode_eq (f : Text) (arg : Node) (printed : Text) :
    callNode f arg printed = match callees.lookup (String.ofList f) with
      | none => .unknown printed
      | some (.fn g) => .fn g arg
      | some (.state s) => .state s arg := by
  by_cases h0 : f = "cos".toList
  · subst h0; rfl
  by_cases h1 : f = "sin".toList
  · subst h1; rfl
  by_cases h2 : f = "exp".toList
  · subst h2; rfl
  by_cases h3 : f = "abs".toList
  · subst h3; rfl
  by_cases h4 : f = "log".toList
  · subst h4; rfl
  by_cases h5 : f = "sqrt".toList
  · subst h5; rfl
  by_cases h6 : f = "x".toList
  · subst h6; rfl
  by_cases h7 : f = "y".toList
  · subst h7; rfl
  by_cases h8 : f = "z".toList
  · subst h8; rfl
  by_cases h9 : f = "u".toList
  · subst h9; rfl
  by_cases h10 : f = "v".toList
  · subst h10; rfl
  by_cases h11 : f = "w".toList
  · subst h11; rfl
  by_cases h12 : f = "p".toList
  · subst h12; rfl
  by_cases h13 : f = "q".toList
  · subst h13; rfl
  by_cases h14 : f = "r".toList
  · subst h14; rfl
  by_cases h15 : f = "phi".toList
  · subst h15; rfl
  by_cases h16 : f = "theta".toList
  · subst h16; rfl
  by_cases h17 : f = "psi".toList
  · subst h17; rfl
  by_cases h18 : f = "qr".toList
  · subst h18; rfl
  by_cases h19 : f = "qi".toList
  · subst h19; rfl
  by_cases h20 : f = "qj".toList
  · subst h20; rfl
  by_cases h21 : f = "qk".toList
  · subst h21; rfl
  have key : ∀ w : String, f ≠ w.toList → (String.ofList f == w) = false := by
    intro w h
    have : String.ofList f ≠ w := by
      rintro rfl; exact h (by simp)
    simpa using this
  have hl : callees.lookup (String.ofList f) = none := by
    simp only [callees, List.lookup_cons, List.lookup_nil, key _ h0, key _ h1, key _ h2, key _ h3, key _ h4, key _ h5, key _ h6, key _ h7, key _ h8, key _ h9, key _ h10, key _ h11, key _ h12, key _ h13, key _ h14, key _ h15, key _ h16, key _ h17, key _ h18, key _ h19, key _ h20, key _ h21]
  rw [hl]
  simp only [callNode, fnOf, stateOf, h0, h1, h2, h3, h4, h5, h6, h7, h8, h9, h10, h11, h12, h13, h14, h15, h16, h17, h18, h19, h20, h21, if_false]

theorem callNode_known (f : Text) (arg : Node) (printed : Text) :
    (callees.lookup (String.ofList f) = none → callNode f arg printed = .unknown printed) ∧
    (∀ g, callees.lookup (String.ofList f) = some (.fn g) → callNode f arg printed = .fn g arg) ∧
    (∀ s, callees.lookup (String.ofList f) = some (.state s) →
      callNode f arg printed = .state s arg) := by
  rw [callNode_eq]
  exact ⟨fun h => by rw [h], fun g h => by rw [h], fun s h => by rw [h]⟩

/-- C59: a text written with the textbook grammar of arithmetic expressions (sums of products of
powers, all operators associating to the left, parentheses, calls, blanks anywhere between symbols
and at the end) is compiled into something that has, for every arithmetic, every date, recorded
states and data source, exactly the value of that expression (or the same exception). -/
theorem compile_value (fmt : Text → Text) (s b : Text) (e : E) (h : Writes .sum s e)
    (hb : Blanks b) {D : Type} (A : Arith D) (env : Env D) (v : Except String D)
    (hv : e.value A env = some v) : (compile fmt (s ++ b)).eval A env = v := by
  rw [compile_writes fmt s b e h hb]
  clear h
  have lift2_inv : ∀ (f : D → D → D) (x y : Option (Except String D)) (v : Except String D),
      E.value.lift2 f x y = some v → ∃ p q, x = some p ∧ y = some q ∧
        v = (match p with
          | .error e => .error e
          | .ok x => q.map (f x)) := by
    intro f x y v h
    cases x with
    | none => simp [E.value.lift2] at h
    | some p =>
      cases y with
      | none => simp [E.value.lift2] at h
      | some q =>
        refine ⟨p, q, rfl, rfl, ?_⟩
        simp only [E.value.lift2, Option.some.injEq] at h
        rw [← h]
        cases p <;> cases q <;> rfl
  induction e generalizing v with
  | num l => simpa [E.value, nodeE, Node.eval] using hv
  | name n =>
    simp only [E.value, Option.some.injEq] at hv
    subst hv
    by_cases hn : n = ['t']
    · subst hn; rfl
    · have : n ≠ "t".toList := hn
      simp [nodeE, hn, Node.eval]
  | call f a ih =>
    obtain ⟨h0, h1, h2⟩ := callNode_known f (nodeE fmt a) (printE fmt (.call f a))
    simp only [E.value] at hv
    cases hc : callees.lookup (String.ofList f) with
    | none => simp [hc] at hv
    | some c =>
      cases c with
      | fn g =>
        simp only [hc] at hv
        cases ha : a.value A env with
        | none => simp [ha] at hv
        | some w =>
          simp only [ha, Option.map_some, Option.some.injEq] at hv
          simp only [nodeE, h1 g hc, Node.eval, ih w ha]
          rw [← hv]
          cases w <;> rfl
      | state st =>
        simp only [hc] at hv
        cases ha : a.value A env with
        | none => simp [ha] at hv
        | some w =>
          simp only [ha, Option.map_some, Option.some.injEq] at hv
          simp only [nodeE, h2 st hc, Node.eval, ih w ha]
          rw [← hv]
          cases w <;> rfl
  | add a b iha ihb =>
    obtain ⟨p, q, hp, hq, rfl⟩ := lift2_inv _ _ _ _ hv
    simp only [nodeE, Node.eval, iha p hp, ihb q hq]; rfl
  | sub a b iha ihb =>
    obtain ⟨p, q, hp, hq, rfl⟩ := lift2_inv _ _ _ _ hv
    simp only [nodeE, Node.eval, iha p hp, ihb q hq]; rfl
  | mul a b iha ihb =>
    obtain ⟨p, q, hp, hq, rfl⟩ := lift2_inv _ _ _ _ hv
    simp only [nodeE, Node.eval, iha p hp, ihb q hq]; rfl
  | div a b iha ihb =>
    obtain ⟨p, q, hp, hq, rfl⟩ := lift2_inv _ _ _ _ hv
    simp only [nodeE, Node.eval, iha p hp, ihb q hq]; rfl
  | pow a b iha ihb =>
    obtain ⟨p, q, hp, hq, rfl⟩ := lift2_inv _ _ _ _ hv
    simp only [nodeE, Node.eval, iha p hp, ihb q hq]; rfl

/-- a text has at most one meaning: the grammar of the specification is not ambiguous -/
theorem writes_unique (s : Text) (e e' : E) (h : Writes .sum s e) (h' : Writes .sum s e') :
    e = e' := by
  have hb : Blanks [] := by intro c hc; cases hc
  obtain ⟨a, r, hp, _, rfl⟩ := phraseParse_complete s [] e h hb
  obtain ⟨a', r', hp', _, rfl⟩ := phraseParse_complete s [] e' h' hb
  rw [hp] at hp'
  simp only [Option.some.injEq, Prod.mk.injEq] at hp'
  rw [hp'.1]

/-- a call of something that is neither a function nor a state, with a name as argument, is the
command of that name: `f(n)` is looked up in the data source under the name "f(n)", whatever the
blanks and the redundant parentheses -/
theorem compile_command (fmt : Text → Text) (s b f n : Text)
    (h : Writes .sum s (.call f (.name n))) (hb : Blanks b)
    (hf : callees.lookup (String.ofList f) = none) {D : Type} (A : Arith D) (env : Env D) :
    (compile fmt (s ++ b)).eval A env = env.ds (f ++ "(".toList ++ n ++ ")".toList) := by
  rw [compile_writes fmt s b _ h hb, nodeE, (callNode_known f _ _).1 hf]
  rfl

/-- computing a derivation of the grammar from a run of the parser -/
theorem writes_of_parse (s : Text) (e : E)
    (h : (phraseParse s).map (fun x => (absExpr x.1, x.2)) = some (e, [])) : Writes .sum s e := by
  cases hp : phraseParse s with
  | none => simp [hp] at h
  | some x =>
    obtain ⟨ast, r⟩ := x
    simp only [hp, Option.map_some, Option.some.injEq, Prod.mk.injEq] at h
    obtain ⟨rfl, rfl⟩ := h
    obtain ⟨_, s', hs, hw⟩ := exprP_sound _ _ _ _ hp
    rw [List.append_nil] at hs
    rw [hs]; exact hw

/-- a - b - c*d^2^3 / (1.5e3 + x(t - 2)) is ((a - b) - ((c*((d^2)^3)) / (1.5e3 + x(t - 2)))) -/
example : Writes .sum "a - b - c*d^2^3 / (1.5e3 + x( t-2))".toList
    (.sub (.sub (.name "a".toList) (.name "b".toList))
      (.div (.mul (.name "c".toList)
          (.pow (.pow (.name "d".toList) (.num "2".toList)) (.num "3".toList)))
        (.add (.num "1.5e3".toList)
          (.call "x".toList (.sub (.name "t".toList) (.num "2".toList)))))) := by
  apply writes_of_parse; decide +kernel

/-- PropRudd(rpm) is a command -/
example : Writes .sum "PropRudd(rpm )".toList
    (.call "PropRudd".toList (.name "rpm".toList)) ∧
    callees.lookup (String.ofList "PropRudd".toList) = none := by
  refine ⟨?_, by rfl⟩
  apply writes_of_parse; decide +kernel

/-- in this grammar (as in the code) a sign belongs to the literal, so that -3^2 is (-3)^2 -/
theorem sign_binds_tighter : Writes .sum "-3^2".toList (.pow (.num "-3".toList) (.num "2".toList)) := by
  apply writes_of_parse; decide +kernel

/-- `maneuvering::print` does not print enough parentheses: what it prints for (a+b)*c is the text
of another expression, a+(b*c) -/
theorem print_not_faithful : print id "(a+b)*c".toList = "a+(b)*(c)".toList ∧
    compile id "(a+b)*c".toList ≠ compile id (print id "(a+b)*c".toList) := by
  constructor <;> decide +kernel

/-! ## C60 -/

/-- C60 (partial). What is compiled is always a beginning of the text that is a well-written
expression, or nothing at all (the expression is then the constant NaN). The rest of the text is
ignored, and no error is ever raised: see `compile_ignores_rest` and `compile_unparsable`. -/
theorem compile_prefix_partial (fmt : Text → Text) (s : Text) :
    (∃ s' r e, s = s' ++ r ∧ Writes .sum s' e ∧ ∀ {D : Type} (A : Arith D) (env : Env D)
      (v : Except String D), e.value A env = some v → (compile fmt s).eval A env = v) ∨
    compile fmt s = .nan := by
  cases hp : phraseParse s with
  | none => right; simp [compile, hp]
  | some x =>
    obtain ⟨ast, r⟩ := x
    left
    obtain ⟨hwf, s', hs, hw⟩ := exprP_sound _ _ _ _ hp
    refine ⟨s', r, absExpr ast, hs, hw, ?_⟩
    intro D A env v hv
    have h1 := compile_value fmt s' [] (absExpr ast) hw (by intro c hc; cases hc) A env v hv
    have h2 := compile_writes fmt s' [] (absExpr ast) hw (by intro c hc; cases hc)
    have h3 : compile fmt s = nodeE fmt (absExpr ast) := by
      simp only [compile, hp, evalExpr_eq fmt ast hwf]
    rw [h3, ← h2]; exact h1

/-- C60 is false: text that cannot be parsed is silently dropped. `1 + 2 x` means 1+2, and
`2*u(t) + -v(t)` means 2*u(t). -/
theorem compile_ignores_rest :
    compile id "1 + 2 x".toList = compile id "1+2".toList ∧
    compile id "2*u(t) + -v(t)".toList = compile id "2*u(t)".toList ∧
    compile id "a)))) this is not an expression".toList = compile id "a".toList := by
  refine ⟨?_, ?_, ?_⟩ <;> decide +kernel

/-- C60 is false: an expression that cannot be read at all is the constant NaN -/
theorem compile_unparsable :
    compile id "-x(t)".toList = .nan ∧ compile id "".toList = .nan ∧
    compile id "*3".toList = .nan := by
  refine ⟨?_, ?_, ?_⟩ <;> decide +kernel

/-- no text with something other than blanks after the expression is a text of the grammar: the
examples above really are ill-written -/
theorem ill_written : ¬ ∃ e, Writes .sum "1 + 2 x".toList e := by
  rintro ⟨e, h⟩
  obtain ⟨a, r, hp, hr, _⟩ := phraseParse_complete _ [] e h (by intro c hc; cases hc)
  have h2 : (phraseParse "1 + 2 x".toList).map (fun x => x.2) = some " x".toList := by
    decide +kernel
  rw [List.append_nil] at hp
  rw [hp] at h2
  simp only [Option.map_some, Option.some.injEq] at h2
  subst h2
  have := hr 'x' (by decide)
  revert this; decide

/-! ## C61 -/

/-- the delays with which the states are read when a node is evaluated -/
inductive Asks (A : Arith ℝ) (env : Env ℝ) : Node → ℝ → Prop
  | state (s : StateType) (a : Node) (v : ℝ) : a.eval A env = .ok v →
      Asks A env (.state s a) (env.t - v)
  | stateArg (s : StateType) (a : Node) (d : ℝ) : Asks A env a d → Asks A env (.state s a) d
  | fn (f : Fn) (a : Node) (d : ℝ) : Asks A env a d → Asks A env (.fn f a) d
  | left (o : Op) (a b : Node) (d : ℝ) : Asks A env a d → Asks A env (.bin o a b) d
  | right (o : Op) (a b : Node) (d : ℝ) : Asks A env b d → Asks A env (.bin o a b) d

/-- nodes in which no state is read -/
def Stateless : Node → Prop
  | .state _ _ => False
  | .fn _ a => Stateless a
  | .bin _ a b => Stateless a ∧ Stateless b
  | _ => True

/-- delays whose bounds are computed soundly: constants, sines and cosines of anything, and their
sums, differences, absolute values, exponentials, square roots, and products, quotients, logarithms
and powers of positive ones -/
inductive Tame (lit : Text → ℝ) (nan : ℝ) : Node → Prop
  | constant (l : Text) : Tame lit nan (.constant l)
  | cos (a : Node) : Tame lit nan (.fn .cos a)
  | sin (a : Node) : Tame lit nan (.fn .sin a)
  | abs (a : Node) : Tame lit nan a → Tame lit nan (.fn .abs a)
  | exp (a : Node) : Tame lit nan a → Tame lit nan (.fn .exp a)
  | sqrt (a : Node) : Tame lit nan a → Tame lit nan (.fn .sqrt a)
  | log (a : Node) : Tame lit nan a → 0 < (bounds lit nan a).1 → Tame lit nan (.fn .log a)
  | sum (a b : Node) : Tame lit nan a → Tame lit nan b → Tame lit nan (.bin .sum a b)
  | difference (a b : Node) : Tame lit nan a → Tame lit nan b →
      Tame lit nan (.bin .difference a b)
  | multiply (a b : Node) : Tame lit nan a → Tame lit nan b → 0 ≤ (bounds lit nan a).1 →
      0 ≤ (bounds lit nan b).1 → Tame lit nan (.bin .multiply a b)
  | divide (a b : Node) : Tame lit nan a → Tame lit nan b → 0 ≤ (bounds lit nan a).1 →
      0 < (bounds lit nan b).1 → Tame lit nan (.bin .divide a b)
  | pow (a b : Node) : Tame lit nan a → Tame lit nan b → 0 < (bounds lit nan a).1 →
      Tame lit nan (.bin .pow a b)

theorem rpow_between (a b x c d y : ℝ) (ha : 0 < a) (hx : a ≤ x ∧ x ≤ b) (hy : c ≤ y ∧ y ≤ d) :
    min (min (a ^ c) (a ^ d)) (min (b ^ c) (b ^ d)) ≤ x ^ y ∧
    x ^ y ≤ max (max (a ^ c) (a ^ d)) (max (b ^ c) (b ^ d)) := by
  have hx0 : 0 < x := lt_of_lt_of_le ha hx.1
  -- for a fixed exponent, between the values at a and b
  have base : ∀ z : ℝ, min (a ^ z) (b ^ z) ≤ x ^ z ∧ x ^ z ≤ max (a ^ z) (b ^ z) := by
    intro z
    rcases le_total 0 z with hz | hz
    · exact ⟨min_le_of_left_le (Real.rpow_le_rpow ha.le hx.1 hz),
        le_max_of_le_right (Real.rpow_le_rpow hx0.le hx.2 hz)⟩
    · exact ⟨min_le_of_right_le (Real.rpow_le_rpow_of_nonpos hx0 hx.2 hz),
        le_max_of_le_left (Real.rpow_le_rpow_of_nonpos ha hx.1 hz)⟩
  have expo : min (x ^ c) (x ^ d) ≤ x ^ y ∧ x ^ y ≤ max (x ^ c) (x ^ d) := by
    rcases le_total 1 x with h1 | h1
    · exact ⟨min_le_of_left_le (Real.rpow_le_rpow_of_exponent_le h1 hy.1),
        le_max_of_le_right (Real.rpow_le_rpow_of_exponent_le h1 hy.2)⟩
    · exact ⟨min_le_of_right_le (Real.rpow_le_rpow_of_exponent_ge hx0 h1 hy.2),
        le_max_of_le_left (Real.rpow_le_rpow_of_exponent_ge hx0 h1 hy.1)⟩
  obtain ⟨c1, c2⟩ := base c
  obtain ⟨d1, d2⟩ := base d
  constructor
  · refine le_trans (le_min ?_ ?_) expo.1
    · refine le_trans ?_ c1
      exact le_min (min_le_of_left_le (min_le_left _ _)) (min_le_of_right_le (min_le_left _ _))
    · refine le_trans ?_ d1
      exact le_min (min_le_of_left_le (min_le_right _ _)) (min_le_of_right_le (min_le_right _ _))
  · refine le_trans expo.2 (max_le ?_ ?_)
    · refine le_trans c2 ?_
      exact max_le (le_max_of_le_left (le_max_left _ _)) (le_max_of_le_right (le_max_left _ _))
    · refine le_trans d2 ?_
      exact max_le (le_max_of_le_left (le_max_right _ _)) (le_max_of_le_right (le_max_right _ _))

/-- the value of a tame node is between its bounds, whatever the date, the states and the data
source -/
theorem tame_bounds (lit : Text → ℝ) (nan : ℝ) (n : Node) (h : Tame lit nan n) (env : Env ℝ)
    (v : ℝ) (hv : n.eval (realArith lit nan) env = .ok v) :
    (bounds lit nan n).1 ≤ v ∧ v ≤ (bounds lit nan n).2 := by
  have fn_inv : ∀ (f : Fn) (a : Node) (v : ℝ), (Node.fn f a).eval (realArith lit nan) env = .ok v →
      ∃ x, a.eval (realArith lit nan) env = .ok x ∧ v = (realArith lit nan).fn f x := by
    intro f a v h
    simp only [Node.eval] at h
    cases ha : a.eval (realArith lit nan) env with
    | error e => simp [ha, Except.map] at h
    | ok x => simp only [ha, Except.map, Except.ok.injEq] at h; exact ⟨x, rfl, h.symm⟩
  have bin_inv : ∀ (o : Op) (a b : Node) (v : ℝ),
      (Node.bin o a b).eval (realArith lit nan) env = .ok v →
      ∃ x y, a.eval (realArith lit nan) env = .ok x ∧ b.eval (realArith lit nan) env = .ok y ∧
        v = (realArith lit nan).op o x y := by
    intro o a b v h
    simp only [Node.eval] at h
    cases ha : a.eval (realArith lit nan) env with
    | error e => simp [ha] at h
    | ok x =>
      cases hb : b.eval (realArith lit nan) env with
      | error e => simp [ha, hb, Except.map] at h
      | ok y =>
        simp only [ha, hb, Except.map, Except.ok.injEq] at h
        exact ⟨x, y, rfl, rfl, h.symm⟩
  induction h generalizing v with
  | constant l =>
    simp only [Node.eval, Except.ok.injEq] at hv
    rw [← hv]; exact ⟨le_rfl, le_rfl⟩
  | cos a =>
    obtain ⟨x, _, rfl⟩ := fn_inv _ _ _ hv
    exact ⟨Real.neg_one_le_cos x, Real.cos_le_one x⟩
  | sin a =>
    obtain ⟨x, _, rfl⟩ := fn_inv _ _ _ hv
    exact ⟨Real.neg_one_le_sin x, Real.sin_le_one x⟩
  | abs a _ ih =>
    obtain ⟨x, hx, rfl⟩ := fn_inv _ _ _ hv
    obtain ⟨h1, h2⟩ := ih x hx
    refine ⟨abs_nonneg x, ?_⟩
    show |x| ≤ max |(bounds lit nan a).2| |(bounds lit nan a).1|
    rw [max_comm]
    exact abs_le_max_abs_abs h1 h2
  | exp a _ ih =>
    obtain ⟨x, hx, rfl⟩ := fn_inv _ _ _ hv
    obtain ⟨h1, h2⟩ := ih x hx
    exact ⟨Real.exp_le_exp.2 h1, Real.exp_le_exp.2 h2⟩
  | sqrt a _ ih =>
    obtain ⟨x, hx, rfl⟩ := fn_inv _ _ _ hv
    obtain ⟨h1, h2⟩ := ih x hx
    exact ⟨Real.sqrt_le_sqrt h1, Real.sqrt_le_sqrt h2⟩
  | log a _ h0 ih =>
    obtain ⟨x, hx, rfl⟩ := fn_inv _ _ _ hv
    obtain ⟨h1, h2⟩ := ih x hx
    exact ⟨Real.log_le_log h0 h1, Real.log_le_log (lt_of_lt_of_le h0 h1) h2⟩
  | sum a b _ _ iha ihb =>
    obtain ⟨x, y, hx, hy, rfl⟩ := bin_inv _ _ _ _ hv
    obtain ⟨h1, h2⟩ := iha x hx
    obtain ⟨h3, h4⟩ := ihb y hy
    exact ⟨add_le_add h1 h3, add_le_add h2 h4⟩
  | difference a b _ _ iha ihb =>
    obtain ⟨x, y, hx, hy, rfl⟩ := bin_inv _ _ _ _ hv
    obtain ⟨h1, h2⟩ := iha x hx
    obtain ⟨h3, h4⟩ := ihb y hy
    exact ⟨sub_le_sub h1 h4, sub_le_sub h2 h3⟩
  | multiply a b _ _ ha hb iha ihb =>
    obtain ⟨x, y, hx, hy, rfl⟩ := bin_inv _ _ _ _ hv
    obtain ⟨h1, h2⟩ := iha x hx
    obtain ⟨h3, h4⟩ := ihb y hy
    exact ⟨mul_le_mul h1 h3 hb (le_trans ha h1),
      mul_le_mul h2 h4 (le_trans hb h3) (le_trans (le_trans ha h1) h2)⟩
  | divide a b _ _ ha hb iha ihb =>
    obtain ⟨x, y, hx, hy, rfl⟩ := bin_inv _ _ _ _ hv
    obtain ⟨h1, h2⟩ := iha x hx
    obtain ⟨h3, h4⟩ := ihb y hy
    have hy0 : 0 < y := lt_of_lt_of_le hb h3
    constructor
    · show (bounds lit nan a).1 / (bounds lit nan b).2 ≤ x / y
      exact div_le_div₀ (le_trans ha h1) h1 hy0 h4
    · show x / y ≤ (bounds lit nan a).2 / (bounds lit nan b).1
      exact div_le_div₀ (le_trans (le_trans ha h1) h2) h2 hb h3
  | pow a b _ _ ha iha ihb =>
    obtain ⟨x, y, hx, hy, rfl⟩ := bin_inv _ _ _ _ hv
    exact rpow_between _ _ _ _ _ _ ha (iha x hx) (ihb y hy)

/-- expressions whose delays are covered: every state is read at `t`, at `t` minus a constant, or,
for the state x only, at `t` minus a tame stateless expression -/
inductive Covered (lit : Text → ℝ) (nan : ℝ) : Node → Prop
  | nan : Covered lit nan .nan
  | constant (l : Text) : Covered lit nan (.constant l)
  | time : Covered lit nan .time
  | unknown (n : Text) : Covered lit nan (.unknown n)
  | fn (f : Fn) (a : Node) : Covered lit nan a → Covered lit nan (.fn f a)
  | bin (o : Op) (a b : Node) : Covered lit nan a → Covered lit nan b → Covered lit nan (.bin o a b)
  | now (s : StateType) : Covered lit nan (.state s .time)
  | delayed (s : StateType) (l : Text) :
      Covered lit nan (.state s (.bin .difference .time (.constant l)))
  | tame (a : Node) : Tame lit nan a → Stateless a →
      Covered lit nan (.state .X (.bin .difference .time a))

theorem findTmax_ge (lit : Text → ℝ) (nan : ℝ) (n : Node) (T : ℝ) : T ≤ findTmax lit nan T n := by
  induction n generalizing T with
  | nan => exact le_rfl
  | constant => exact le_rfl
  | time => exact le_rfl
  | unknown => exact le_rfl
  | fn f a ih => exact ih T
  | state s a _ => cases s <;> exact le_max_left _ _
  | bin o a b iha ihb => exact le_trans (iha T) (ihb _)

theorem stateless_asks (A : Arith ℝ) (env : Env ℝ) (n : Node) (h : Stateless n) (d : ℝ) :
    ¬ Asks A env n d := by
  intro ha
  induction ha with
  | state => exact h
  | stateArg => exact h
  | fn _ _ _ _ ih => exact ih h
  | left _ _ _ _ _ ih => exact ih h.1
  | right _ _ _ _ _ ih => exact ih h.2

theorem findTmax_covers (lit : Text → ℝ) (nan : ℝ) (n : Node) (h : Covered lit nan n) (T : ℝ)
    (hT : 0 ≤ T) (env : Env ℝ) (d : ℝ) (ha : Asks (realArith lit nan) env n d) :
    d ≤ findTmax lit nan T n := by
  induction h generalizing T with
  | nan => cases ha
  | constant => cases ha
  | time => cases ha
  | unknown => cases ha
  | fn f a _ ih => cases ha with
    | fn _ _ _ h => exact ih T hT h
  | bin o a b _ _ iha ihb => cases ha with
    | left _ _ _ _ h => exact le_trans (iha T hT h) (findTmax_ge _ _ _ _)
    | right _ _ _ _ h => exact ihb _ (le_trans hT (findTmax_ge _ _ _ _)) h
  | now s => cases ha with
    | state _ _ v hv =>
      simp only [Node.eval, Except.ok.injEq] at hv
      rw [← hv, sub_self]
      exact le_trans hT (findTmax_ge _ _ _ _)
    | stateArg _ _ _ h => cases h
  | delayed s l => cases ha with
    | state _ _ v hv =>
      simp only [Node.eval, Except.map, Except.ok.injEq] at hv
      have hv' : env.t - lit l = v := hv
      have hd : env.t - v = lit l := by rw [← hv']; ring
      rw [hd]
      cases s <;>
      · refine le_trans (le_of_eq ?_) (le_max_right _ _)
        simp [bounds]
    | stateArg _ _ _ h =>
      cases h with
      | left _ _ _ _ h => cases h
      | right _ _ _ _ h => cases h
  | tame a htame hst => cases ha with
    | state _ _ v hv =>
      simp only [Node.eval] at hv
      cases hx : a.eval (realArith lit nan) env with
      | error e => simp [hx, Except.map] at hv
      | ok x =>
        simp only [hx, Except.map, Except.ok.injEq] at hv
        have hv' : env.t - x = v := hv
        have hd : env.t - v = x := by rw [← hv']; ring
        rw [hd]
        refine le_trans ?_ (le_max_right _ _)
        have := (tame_bounds lit nan a htame env x hx).2
        simp only [bounds]
        linarith
    | stateArg _ _ _ h =>
      cases h with
      | left _ _ _ _ h => cases h
      | right _ _ _ _ h => exact absurd h (stateless_asks _ _ _ hst _)

/-- C61 (partial): if every expression of a maneuvering model reads the states at `t`, at `t` minus
a constant or, for the state x, at `t` minus an expression of sound bounds, then, at every date and
whatever the states and the commands, no delay asked is larger than the length of history that the
model requires. Missing: the other delays, for which the claim is false, see
`tmax_too_short_other_state`, `tmax_too_short_variable` and `tmax_too_short_nested`. -/
theorem modelTmax_covers_partial (lit : Text → ℝ) (nan : ℝ) (m : List Node)
    (hm : ∀ n ∈ m, Covered lit nan n) (env : Env ℝ) (n : Node) (hn : n ∈ m) (d : ℝ)
    (ha : Asks (realArith lit nan) env n d) : d ≤ modelTmax lit nan m := by
  have h1 := findTmax_covers lit nan n (hm n hn) 0 le_rfl env d ha
  have key : ∀ (l : List Node) (T : ℝ), T ≤ l.foldl (fun T n => max T (getTmax lit nan n)) T ∧
      ∀ n ∈ l, getTmax lit nan n ≤ l.foldl (fun T n => max T (getTmax lit nan n)) T := by
    intro l
    induction l with
    | nil => intro T; exact ⟨le_rfl, by simp⟩
    | cons x l ih =>
      intro T
      simp only [List.foldl_cons]
      obtain ⟨h2, h3⟩ := ih (max T (getTmax lit nan x))
      refine ⟨le_trans (le_max_left _ _) h2, ?_⟩
      intro y hy
      rcases List.mem_cons.mp hy with rfl | hy
      · exact le_trans (le_max_right _ _) h2
      · exact h3 y hy
  exact le_trans h1 ((key m 0).2 n hn)

/-- the requirement is at least 0, and does not depend on the order of the expressions -/
theorem modelTmax_nonneg (lit : Text → ℝ) (nan : ℝ) (m : List Node) : 0 ≤ modelTmax lit nan m := by
  have key : ∀ (l : List Node) (T : ℝ), T ≤ l.foldl (fun T n => max T (getTmax lit nan n)) T := by
    intro l
    induction l with
    | nil => intro T; exact le_rfl
    | cons x l ih => intro T; exact le_trans (le_max_left _ _) (ih _)
  exact key m 0

/-- the example of the documentation: `1E6*(x(t-6) + command1*x(t-5) + 2*b*y(t-4) + z(t-3)/a)` is
covered, and needs 6 seconds when the literal "6" is worth 6 -/
example (lit : Text → ℝ) (nan : ℝ) (h6 : lit "6".toList = 6) (h5 : lit "5".toList = 5)
    (h4 : lit "4".toList = 4) (h3 : lit "3".toList = 3) :
    Covered lit nan (compile id "1E6*(x(t-6) + command1*x(t-5) + 2*b*y(t-4) + z(t-3)/a)".toList) ∧
    getTmax lit nan (compile id "1E6*(x(t-6) + command1*x(t-5) + 2*b*y(t-4) + z(t-3)/a)".toList)
      = 6 := by
  have hc : compile id "1E6*(x(t-6) + command1*x(t-5) + 2*b*y(t-4) + z(t-3)/a)".toList =
      .bin .multiply (.constant "1E6".toList)
        (.bin .sum (.bin .sum (.bin .sum
          (.state .X (.bin .difference .time (.constant "6".toList)))
          (.bin .multiply (.unknown "command1".toList)
            (.state .X (.bin .difference .time (.constant "5".toList)))))
          (.bin .multiply (.bin .multiply (.constant "2".toList) (.unknown "b".toList))
            (.state .Y (.bin .difference .time (.constant "4".toList)))))
          (.bin .divide (.state .Z (.bin .difference .time (.constant "3".toList)))
            (.unknown "a".toList))) := by decide +kernel
  rw [hc]
  constructor
  · repeat' first | constructor
  · simp only [getTmax, findTmax, bounds, h6, h5, h4, h3]
    norm_num

/-- C61 is false for the states other than x: `y(t-(2+cos(t)))` needs 3 seconds of history at the
dates where the cosine is 1, and only 1 is required (get_max is used instead of get_min) -/
theorem tmax_too_short_other_state (lit : Text → ℝ) (nan : ℝ) (h2 : lit "2".toList = 2) :
    ∃ env : Env ℝ, Asks (realArith lit nan) env (compile id "y(t-(2+cos(t)))".toList) 3 ∧
      getTmax lit nan (compile id "y(t-(2+cos(t)))".toList) = 1 := by
  have hc : compile id "y(t-(2+cos(t)))".toList = .state .Y (.bin .difference .time
      (.bin .sum (.constant "2".toList) (.fn .cos .time))) := by decide +kernel
  rw [hc]
  refine ⟨⟨0, fun _ _ => .ok 0, fun _ => .ok 0⟩, ?_, ?_⟩
  · have h : (Node.bin .difference .time
        (.bin .sum (.constant "2".toList) (.fn .cos .time))).eval (realArith lit nan)
        ⟨0, fun _ _ => .ok 0, fun _ => .ok 0⟩ = .ok (0 - (2 + Real.cos 0)) := by
      simp only [Node.eval, Except.map, h2, realArith, Arith.op]
    have := Asks.state (A := realArith lit nan) (env := ⟨0, fun _ _ => .ok 0, fun _ => .ok 0⟩)
      .Y _ _ h
    have h3 : (0 : ℝ) - (0 - (2 + Real.cos 0)) = 3 := by rw [Real.cos_zero]; norm_num
    rw [h3] at this
    exact this
  · simp only [getTmax, findTmax, bounds, h2]
    norm_num

/-- C61 is false for delays given by another expression or a command: `x(t-tau)`, as in the
documentation, requires no history at all -/
theorem tmax_too_short_variable (lit : Text → ℝ) (nan τ : ℝ) :
    ∃ env : Env ℝ, Asks (realArith lit nan) env (compile id "x(t-tau)".toList) τ ∧
      getTmax lit nan (compile id "x(t-tau)".toList) = 0 := by
  have hc : compile id "x(t-tau)".toList = .state .X (.bin .difference .time
      (.unknown "tau".toList)) := by decide +kernel
  rw [hc]
  refine ⟨⟨0, fun _ _ => .ok 0, fun _ => .ok τ⟩, ?_, ?_⟩
  · have h : (Node.bin .difference .time (.unknown "tau".toList)).eval (realArith lit nan)
        ⟨0, fun _ _ => .ok 0, fun _ => .ok τ⟩ = .ok (0 - τ) := by
      simp only [Node.eval, Except.map, realArith, Arith.op]
    have := Asks.state (A := realArith lit nan) (env := ⟨0, fun _ _ => .ok 0, fun _ => .ok τ⟩)
      .X _ _ h
    have h3 : (0 : ℝ) - (0 - τ) = τ := by ring
    rw [h3] at this
    exact this
  · simp [getTmax, findTmax, bounds]

/-- C61 is false for states used inside a delay: `x(t-cos(y(t-5)))` reads y 5 seconds ago, and only
1 second is required -/
theorem tmax_too_short_nested (lit : Text → ℝ) (nan : ℝ) (h5 : lit "5".toList = 5) :
    ∃ env : Env ℝ, Asks (realArith lit nan) env (compile id "x(t-cos(y(t-5)))".toList) 5 ∧
      getTmax lit nan (compile id "x(t-cos(y(t-5)))".toList) = 1 := by
  have hc : compile id "x(t-cos(y(t-5)))".toList = .state .X (.bin .difference .time
      (.fn .cos (.state .Y (.bin .difference .time (.constant "5".toList))))) := by decide +kernel
  rw [hc]
  refine ⟨⟨0, fun _ _ => .ok 0, fun _ => .ok 0⟩, ?_, ?_⟩
  · have h : (Node.bin .difference .time (.constant "5".toList)).eval (realArith lit nan)
        ⟨0, fun _ _ => .ok 0, fun _ => .ok 0⟩ = .ok (0 - 5) := by
      simp only [Node.eval, Except.map, h5, realArith, Arith.op]
    have := Asks.state (A := realArith lit nan) (env := ⟨0, fun _ _ => .ok 0, fun _ => .ok 0⟩)
      .Y _ _ h
    have h3 : (0 : ℝ) - (0 - 5) = 5 := by norm_num
    rw [h3] at this
    exact .stateArg _ _ _ (.right _ _ _ _ (.fn _ _ _ this))
  · simp [getTmax, findTmax, bounds]

/-- a delay of sound bounds: x(t-(2+abs(cos(t)))) -/
example (lit : Text → ℝ) (nan : ℝ) : Covered lit nan (.state .X (.bin .difference .time
    (.bin .sum (.constant "2".toList) (.fn .abs (.fn .cos .time))))) :=
  .tame _ (.sum _ _ (.constant _) (.abs _ (.cos _))) (by simp [Stateless])

end Xdyn.Maneuvering

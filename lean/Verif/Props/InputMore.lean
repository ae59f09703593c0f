import Verif.Props.Input
import Mathlib.Data.List.Nodup

/-
Reading of the input files, continued: commands, the whole file, propellers and rudders, damping matrices,
maneuvering models, seed of the random numbers, output sections, absence of undefined behaviour.
-/

namespace Xdyn.Input

variable {K : Type} [Mul K]

/-! ### Commands -/

theorem parseCommandKeys_iff (c : Conv K) (l : List (String × Yaml)) (r : List (String × List K)) :
    parseCommandKeys c l = .ok r ↔
      List.Forall₂ (fun (x : String × List K) (y : String × Yaml) => x.1 = y.1 ∧ IsQuantities c x.2 y.2) r
        (l.filter (fun y => y.1 ≠ "name" ∧ y.1 ≠ "t")) := by
  induction l generalizing r with
  | nil => simp [parseCommandKeys, eq_comm]
  | cons y l ih =>
    obtain ⟨k, v⟩ := y
    by_cases h : k ≠ "name" ∧ k ≠ "t"
    · rw [List.filter_cons_of_pos (by simpa using h), List.forall₂_cons_right_iff]
      simp only [parseCommandKeys, if_pos h, bind_iff', wrap_iff, uvs_iff, Except.ok.injEq]
      constructor
      · rintro ⟨x, hx, xs, hxs, rfl⟩
        exact ⟨_, _, ⟨rfl, hx⟩, (ih xs).mp hxs, rfl⟩
      · rintro ⟨⟨k', x⟩, xs, ⟨hk, hx⟩, hxs, rfl⟩
        simp only at hk hx
        subst hk
        exact ⟨x, hx, xs, (ih xs).mpr hxs, rfl⟩
    · rw [List.filter_cons_of_neg (by simpa using h)]
      simp only [parseCommandKeys, if_neg h]
      exact ih r

theorem entries_map {n : Yaml} {l : List (String × Yaml)} (h : n = .map l) : entries n = l := by subst h; rfl

theorem map_of_key {n : Yaml} {k : String} {P : Yaml → Prop} (h : Key n k P) : ∃ l, n = .map l := by
  obtain ⟨v, ⟨l, hl, -⟩, -⟩ := h
  exact ⟨l, hl⟩

theorem parseCommandsNode_iff (c : Conv K) (n : Yaml) (r : CommandsNode K) :
    parseCommandsNode c n = .ok r ↔ IsCommands c r n := by
  simp only [parseCommandsNode, bind_iff', field_iff, text_iff, vector_iff, number_iff, parseCommandKeys_iff,
    Except.ok.injEq, IsCommands]
  constructor
  · rintro ⟨s, hs, t, ht, cs, hcs, rfl⟩
    obtain ⟨l, hl⟩ := map_of_key hs
    exact ⟨hs, ht, l, hl, by rw [entries_map hl] at hcs; exact hcs⟩
  · rintro ⟨hs, ht, l, hl, h⟩
    exact ⟨_, hs, _, ht, _, by rw [entries_map hl]; exact h, rfl⟩

/-! ### The whole file -/

theorem parseRotation_iff (c : Conv K) (n : Yaml) (r : Xdyn.Setup.Rotation) :
    parseRotation c n = .ok r ↔
      ∃ l, IsList c IsText l n ∧ Xdyn.Setup.readRotation (l.map String.toList) = .ok r := by
  simp only [parseRotation, bind_iff, vector_iff, text_iff]

theorem not_empty_of_key {n : Yaml} {k : String} {P : Yaml → Prop} (h : Key n k P) : isEmptyDoc n = false := by
  obtain ⟨v, ⟨l, rfl, hl⟩, -⟩ := h
  cases l with
  | nil => simp at hl
  | cons a l => rfl

/-- **C149** The whole file is accepted exactly when it has the documented format, and what the simulator gets is
what the file says. -/
theorem parseSim_iff [OfNat K 0] (c : Conv K) (n : Yaml) (r : SimInput K) :
    parseSim c n = .ok r ↔
      IsSim c (fun l rot => Xdyn.Setup.readRotation (l.map String.toList) = .ok rot) r n := by
  have key : ((do
    let k ← optional (parseConstants c) { g := 0, rho := 0, nu := 0 } n "environmental constants"
    let b ← optional (vector c (parseBody c)) [] n "bodies"
    let r ← field (parseRotation c) n "rotations convention"
    let e ← optional (vector c parseModel) [] n "environment models"
    let m ← optional (vector c (parseCommandsNode c)) [] n "commands"
    (.ok { constants := k, bodies := b, rotations := r, environment := e, commands := m } : Except Err (SimInput K)))
      = .ok r) ↔ IsSim c (fun l rot => Xdyn.Setup.readRotation (l.map String.toList) = .ok rot) r n := by
    simp only [bind_iff', optional_iff, field_iff, vector_iff, parseConstants_iff, parseBody_iff, parseModel_iff,
      parseCommandsNode_iff, parseRotation_iff, Except.ok.injEq, IsSim]
    constructor
    · rintro ⟨k, h1, b, h2, rot, h3, e, h4, m, h5, rfl⟩
      exact ⟨h1, h2, h3, h4, h5⟩
    · rintro ⟨h1, h2, h3, h4, h5⟩
      exact ⟨_, h1, _, h2, _, h3, _, h4, _, h5, rfl⟩
  unfold parseSim
  constructor
  · intro h
    by_cases he : isEmptyDoc n = true
    · rw [if_pos he] at h; exact absurd h (by simp [invalidInput])
    · rw [if_neg he] at h; exact key.mp h
  · intro h
    rw [if_neg (by rw [not_empty_of_key h.2.2.1]; decide)]
    exact key.mpr h

/-! ### Propellers and rudders -/

section
attribute [local irreducible] Key IsPosition IsQuantity IsNumber IsText IsInt IsList

theorem parsePropeller_iff (c : Conv K) (n : Yaml) (r : Propeller K) : parsePropeller c n = .ok r ↔
    (∃ s, Key n "rotation" (IsText s) ∧ (r.clockwise = true ↔ s = "clockwise")) ∧ IsPropellerExceptRotation c r n := by
  simp only [parsePropeller, bind_iff', field_iff, text_iff, number_iff, uv_iff, parsePosition_iff, Except.ok.injEq,
    IsPropellerExceptRotation]
  constructor
  · rintro ⟨s, hs, t, ht, w, hw, m, hm, p, hp, e, he, d, hd, rfl⟩
    exact ⟨⟨s, hs, beq_iff_eq⟩, ht, hw, hm, hp, he, hd⟩
  · rintro ⟨⟨s, hs, hc⟩, ht, hw, hm, hp, he, hd⟩
    refine ⟨s, hs, _, ht, _, hw, _, hm, _, hp, _, he, _, hd, ?_⟩
    obtain ⟨cw, t, w, m, p, e, d⟩ := r
    simp only at hc
    have : (s == "clockwise") = cw := by
      rw [Bool.eq_iff_iff, beq_iff_eq]; exact hc.symm
    simp only [this]
attribute [local irreducible] IsPropellerExceptRotation

/-- **C150** Wageningen propellers. -/
theorem parseWageningen_iff (c : Conv K) (n : Yaml) (r : Wageningen K) : parseWageningen c n = .ok r ↔
    (∃ s, Key n "rotation" (IsText s) ∧ (r.propeller.clockwise = true ↔ s = "clockwise")) ∧
    IsPropellerExceptRotation c r.propeller n ∧
    Key n "number of blades" (IsInt c (r.blades : Int)) ∧ Key n "blade area ratio AE/A0" (IsNumber c r.areaRatio) := by
  simp only [parseWageningen, bind_iff', field_iff, number_iff, positiveInteger_iff, parsePropeller_iff, Except.ok.injEq]
  constructor
  · rintro ⟨p, ⟨hs, hp⟩, a, ha, z, hz, rfl⟩
    exact ⟨hs, hp, hz, ha⟩
  · rintro ⟨hs, hp, hz, ha⟩
    exact ⟨_, ⟨hs, hp⟩, _, ha, _, hz, rfl⟩

/-- **C150** Propellers given by their thrust and torque coefficients. -/
theorem parseKtKq_iff (c : Conv K) (n : Yaml) (r : KtKq K) : parseKtKq c n = .ok r ↔
    (∃ s, Key n "rotation" (IsText s) ∧ (r.propeller.clockwise = true ↔ s = "clockwise")) ∧
    IsPropellerExceptRotation c r.propeller n ∧ Key n "J" (IsList c (IsNumber c) r.J) ∧
    Key n "Kt" (IsList c (IsNumber c) r.Kt) ∧ Key n "Kq" (IsList c (IsNumber c) r.Kq) := by
  simp only [parseKtKq, bind_iff', field_iff, number_iff, vector_iff, parsePropeller_iff, Except.ok.injEq]
  constructor
  · rintro ⟨p, ⟨hs, hp⟩, j, hj, kt, hkt, kq, hkq, rfl⟩
    exact ⟨hs, hp, hj, hkt, hkq⟩
  · rintro ⟨hs, hp, hj, hkt, hkq⟩
    exact ⟨_, ⟨hs, hp⟩, _, hj, _, hkt, _, hkq, rfl⟩

/-- **C150** Rudders behind a propeller. -/
theorem parseRudder_iff (c : Conv K) (n : Yaml) (r : RudderNode K) : parseRudder c n = .ok r ↔
    parseWageningen c n = .ok r.wageningen ∧ IsRudder c r n := by
  simp only [parseRudder, bind_iff', field_iff, number_iff, uv_iff, parseCoords_iff, Except.ok.injEq, IsRudder]
  constructor
  · rintro ⟨w, hw, a, ha, b, hb, e, he, l, hl, d, hd, p, hp, rfl⟩
    exact ⟨hw, ha, hb, he, hl, hd, hp⟩
  · rintro ⟨hw, ha, hb, he, hl, hd, hp⟩
    exact ⟨_, hw, _, ha, _, hb, _, he, _, hl, _, hd, _, hp, rfl⟩

end

/-! ### Damping matrices -/

omit [Mul K] in
theorem getUB_iff (l : List K) (i : Nat) (x : K) : getUB l i = .ok x ↔ l[i]? = some x := by
  unfold getUB
  cases l[i]? <;> simp

omit [Mul K] in
theorem getUB_ub {l : List K} {i : Nat} (h : l.length ≤ i) : getUB l i = .error .ub := by
  unfold getUB
  rw [List.getElem?_eq_none h]

omit [Mul K] in
theorem sixFirst_iff (row : List K) (v : Fin 6 → K) :
    sixFirst row = .ok v ↔ ∃ rest, row = v 0 :: v 1 :: v 2 :: v 3 :: v 4 :: v 5 :: rest := by
  simp only [sixFirst, bind_iff', getUB_iff, Except.ok.injEq]
  constructor
  · rintro ⟨a0, h0, a1, h1, a2, h2, a3, h3, a4, h4, a5, h5, rfl⟩
    have hl : 5 < row.length := (List.getElem?_eq_some_iff.mp h5).1
    refine ⟨row.drop 6, ?_⟩
    apply List.ext_getElem?
    intro i
    match i with
    | 0 => exact h0
    | 1 => exact h1
    | 2 => exact h2
    | 3 => exact h3
    | 4 => exact h4
    | 5 => exact h5
    | i + 6 =>
      show row[i + 6]? = (row.drop 6)[i]?
      rw [List.getElem?_drop, Nat.add_comm]
  · rintro ⟨rest, rfl⟩
    refine ⟨v 0, rfl, v 1, rfl, v 2, rfl, v 3, rfl, v 4, rfl, v 5, rfl, ?_⟩
    funext i; fin_cases i <;> rfl

omit [Mul K] in
theorem getUB_cases (l : List K) (i : Nat) : (∃ x, getUB l i = .ok x) ∨ getUB l i = .error .ub := by
  unfold getUB
  cases l[i]? with
  | none => exact .inr rfl
  | some x => exact .inl ⟨x, rfl⟩

omit [Mul K] in
theorem sixFirst_cases (row : List K) : (∃ v, sixFirst row = .ok v) ∨ sixFirst row = .error .ub := by
  unfold sixFirst
  rcases getUB_cases row 0 with ⟨a0, h0⟩ | h0
  · rcases getUB_cases row 1 with ⟨a1, h1⟩ | h1
    · rcases getUB_cases row 2 with ⟨a2, h2⟩ | h2
      · rcases getUB_cases row 3 with ⟨a3, h3⟩ | h3
        · rcases getUB_cases row 4 with ⟨a4, h4⟩ | h4
          · rcases getUB_cases row 5 with ⟨a5, h5⟩ | h5
            · rw [h0, h1, h2, h3, h4, h5]; exact .inl ⟨_, rfl⟩
            · rw [h0, h1, h2, h3, h4, h5]; exact .inr rfl
          · rw [h0, h1, h2, h3, h4]; exact .inr rfl
        · rw [h0, h1, h2, h3]; exact .inr rfl
      · rw [h0, h1, h2]; exact .inr rfl
    · rw [h0, h1]; exact .inr rfl
  · rw [h0]; exact .inr rfl

omit [Mul K] in
theorem sixFirst_ub (row : List K) : sixFirst row = .error .ub ↔ row.length < 6 := by
  constructor
  · intro h
    by_contra hl
    have : ∃ v, sixFirst row = .ok v := by
      obtain ⟨a0, a1, a2, a3, a4, a5, rest, rfl⟩ : ∃ a0 a1 a2 a3 a4 a5 rest,
          row = a0 :: a1 :: a2 :: a3 :: a4 :: a5 :: rest := by
        match row, hl with
        | a0 :: a1 :: a2 :: a3 :: a4 :: a5 :: rest, _ => exact ⟨a0, a1, a2, a3, a4, a5, rest, rfl⟩
        | [], h | [_], h | [_, _], h | [_, _, _], h | [_, _, _, _], h | [_, _, _, _, _], h => simp at h
      exact ⟨![a0, a1, a2, a3, a4, a5], (sixFirst_iff _ _).mpr ⟨rest, rfl⟩⟩
    obtain ⟨v, hv⟩ := this
    rw [hv] at h
    cases h
  · intro hl
    rcases sixFirst_cases row with ⟨v, hv⟩ | h
    · obtain ⟨rest, rfl⟩ := (sixFirst_iff _ _).mp hv
      simp at hl
      omega
    · exact h

/-- The key of the damping matrix. -/
def dampingKey : String := "damping matrix at the center of gravity projected in the body frame"

/-- What is read from the rows of a damping matrix: the first six numbers of each. -/
theorem parseDamping_iff (c : Conv K) (n : Yaml) (M : Fin 6 → Fin 6 → K) : parseDamping c n = .ok M ↔
    Key n dampingKey (fun m => ∃ r, IsMatrix6 c "" r m ∧
      ∀ i, ∃ rest, r.rows i = M i 0 :: M i 1 :: M i 2 :: M i 3 :: M i 4 :: M i 5 :: rest) := by
  simp only [parseDamping, bind_iff', field_iff, parseMatrix6_iff, sixFirst_iff, Except.ok.injEq]
  constructor
  · rintro ⟨r, ⟨v, hv, hr⟩, r0, h0, r1, h1, r2, h2, r3, h3, r4, h4, r5, h5, rfl⟩
    refine ⟨v, hv, r, hr, ?_⟩
    intro i; fin_cases i
    exacts [h0, h1, h2, h3, h4, h5]
  · rintro ⟨v, hv, r, hr, h⟩
    refine ⟨r, ⟨v, hv, hr⟩, M 0, h 0, M 1, h 1, M 2, h 2, M 3, h 3, M 4, h 4, M 5, h 5, ?_⟩
    funext i; fin_cases i <;> rfl

/-- **C151** Six rows of six numbers are read as the matrix they are. -/
theorem damping_matrix_partial (c : Conv K) (n : Yaml) (M : Fin 6 → Fin 6 → K)
    (h : Key n dampingKey (fun m => Lacks m "from hdb" ∧ IsSquare6 c M m)) : parseDamping c n = .ok M := by
  rw [parseDamping_iff]
  obtain ⟨v, hv, hl, hM⟩ := h
  exact ⟨v, hv, { readFromFile := false, hdb := "", frame := "", rows := fun i => [M i 0, M i 1, M i 2, M i 3, M i 4, M i 5] },
    Or.inr ⟨hl, rfl, rfl, rfl, hM⟩, fun i => ⟨[], rfl⟩⟩

/-! ### No undefined behaviour -/

/-- The function does not read outside of a container. -/
def NoUB {α : Type} (x : Except Err α) : Prop := x ≠ .error .ub

theorem noUB_ok {α : Type} (a : α) : NoUB (.ok a : Except Err α) := by simp [NoUB]
theorem noUB_throw {α : Type} (s : String) : NoUB (.error (.throw s) : Except Err α) := by simp [NoUB]
theorem noUB_yamlError {α : Type} : NoUB (yamlError : Except Err α) := noUB_throw _
theorem noUB_invalidInput {α : Type} : NoUB (invalidInput : Except Err α) := noUB_throw _
theorem noUB_bind' {α β : Type} {x : Except Err α} {f : α → Except Err β} (h : NoUB x) (hf : ∀ a, NoUB (f a)) :
    NoUB (x.bind f) := by
  cases x with
  | error e => simpa [NoUB, Except.bind] using h
  | ok a => exact hf a
theorem noUB_bind {α β : Type} {x : Except Err α} {f : α → Except Err β} (h : NoUB x) (hf : ∀ a, NoUB (f a)) :
    NoUB (x >>= f) := noUB_bind' h hf
theorem noUB_wrap {α : Type} {x : Except Err α} (h : NoUB x) : NoUB (wrap x) := by
  rcases x with (_ | _) | _
  · exact noUB_invalidInput
  · exact absurd rfl h
  · exact noUB_ok _
theorem noUB_get (n : Yaml) (k : String) : NoUB (get n k) := by
  unfold get
  split
  · split
    · exact noUB_ok _
    · exact noUB_yamlError
  · exact noUB_yamlError
theorem noUB_find (n : Yaml) (k : String) : NoUB (find n k) := by
  unfold find
  split <;> first | exact noUB_ok _ | exact noUB_yamlError
theorem noUB_text (n : Yaml) : NoUB (text n) := by
  unfold text
  split <;> first | exact noUB_ok _ | exact noUB_yamlError
theorem noUB_scalarWith {α : Type} (f : String → Option α) (n : Yaml) : NoUB (scalarWith f n) := by
  unfold scalarWith
  split
  · split
    · exact noUB_ok _
    · exact noUB_yamlError
  · exact noUB_yamlError
theorem noUB_field {α : Type} {f : Yaml → Except Err α} (h : ∀ v, NoUB (f v)) (n : Yaml) (k : String) :
    NoUB (field f n k) := noUB_bind' (noUB_get n k) h
theorem noUB_listOf {α : Type} {f : Yaml → Except Err α} (h : ∀ v, NoUB (f v)) (l : List Yaml) : NoUB (listOf f l) := by
  induction l with
  | nil => exact noUB_ok _
  | cons n l ih => exact noUB_bind (h n) (fun _ => noUB_bind ih (fun _ => noUB_ok _))
theorem noUB_vector {α : Type} (c : Conv K) {f : Yaml → Except Err α} (h : ∀ v, NoUB (f v)) (n : Yaml) :
    NoUB (vector c f n) := by
  unfold vector
  split
  · exact noUB_listOf h _
  · split
    · exact noUB_ok _
    · exact noUB_yamlError
theorem noUB_optional {α : Type} {f : Yaml → Except Err α} (h : ∀ v, NoUB (f v)) (d : α) (n : Yaml) (k : String) :
    NoUB (optional f d n k) :=
  noUB_bind' (noUB_find n k) (fun o => by cases o with
    | none => exact noUB_ok _
    | some v => exact h v)
theorem noUB_eitherKey {α : Type} {f : Yaml → Except Err α} (h : ∀ v, NoUB (f v)) (n : Yaml) (k k' : String) :
    NoUB (eitherKey f n k k') :=
  noUB_bind' (noUB_find n k) (fun o => by cases o with
    | none => exact noUB_field h n k'
    | some v => exact h v)
theorem noUB_ite {α : Type} {p : Prop} [Decidable p] {x y : Except Err α} (hx : NoUB x) (hy : NoUB y) :
    NoUB (if p then x else y) := by
  split
  · exact hx
  · exact hy

theorem noUB_def {α : Type} {x : Except Err α} : NoUB x ↔ x ≠ .error .ub := Iff.rfl

section
attribute [local irreducible] NoUB

/-- Closes `NoUB` goals for the reading functions. -/
macro "no_ub" : tactic => `(tactic| repeat' (first
  | exact noUB_ok _ | exact noUB_yamlError | exact noUB_invalidInput | exact noUB_get _ _ | exact noUB_find _ _
  | exact noUB_text _ | exact noUB_scalarWith _ _
  | intro _ | apply noUB_field | apply noUB_vector | apply noUB_optional | apply noUB_eitherKey | apply noUB_wrap
  | apply noUB_bind | apply noUB_bind' | apply noUB_ite))

theorem noUB_number (c : Conv K) (n : Yaml) : NoUB (number c n) := noUB_scalarWith _ _
theorem noUB_nat (c : Conv K) (n : Yaml) : NoUB (nat c n) := noUB_scalarWith _ _
theorem noUB_bool (c : Conv K) (n : Yaml) : NoUB (bool c n) := noUB_scalarWith _ _
theorem noUB_uv (c : Conv K) (n : Yaml) : NoUB (uv c n) := by
  unfold uv number; no_ub
theorem noUB_uvs (c : Conv K) (n : Yaml) : NoUB (uvs c n) := by
  unfold uvs number; no_ub
theorem noUB_positiveInteger (c : Conv K) (n : Yaml) (k : String) : NoUB (positiveInteger c n k) := by
  unfold positiveInteger int; no_ub

/-- The same with the functions above. -/
macro "no_ub'" : tactic => `(tactic| repeat' (first
  | exact noUB_ok _ | exact noUB_yamlError | exact noUB_invalidInput | exact noUB_get _ _ | exact noUB_find _ _
  | exact noUB_text _ | exact noUB_scalarWith _ _ | exact noUB_number _ _ | exact noUB_nat _ _ | exact noUB_bool _ _
  | exact noUB_uv _ _ | exact noUB_uvs _ _ | exact noUB_positiveInteger _ _ _ | (apply_assumption; done)
  | intro _ | apply noUB_field | apply noUB_vector | apply noUB_optional | apply noUB_eitherKey | apply noUB_wrap
  | apply noUB_bind | apply noUB_bind' | apply noUB_ite))

theorem noUB_parseDiscretization (c : Conv K) (n : Yaml) : NoUB (parseDiscretization c n) := by
  unfold parseDiscretization; no_ub'
theorem noUB_parseStretching (c : Conv K) (n : Yaml) : NoUB (parseStretching c n) := by
  unfold parseStretching; no_ub'
theorem noUB_parseSpectra (c : Conv K) (n : Yaml) : NoUB (parseSpectra c n) := by
  have h_parseStretching := @noUB_parseStretching K _ c
  unfold parseSpectra; no_ub'
theorem noUB_parseWaveOutput (c : Conv K) (n : Yaml) : NoUB (parseWaveOutput c n) := by
  unfold parseWaveOutput; no_ub'
theorem noUB_parseWaves [OfNat K 0] (c : Conv K) (n : Yaml) : NoUB (parseWaves c n) := by
  have h_parseDiscretization := @noUB_parseDiscretization K _ c
  have h_parseSpectra := @noUB_parseSpectra K _ c
  have h_parseWaveOutput := @noUB_parseWaveOutput K _ c
  unfold parseWaves; no_ub'
theorem noUB_parseDefaultWaveModel [OfNat K 0] (c : Conv K) (n : Yaml) : NoUB (parseDefaultWaveModel c n) := by
  unfold parseDefaultWaveModel; no_ub'
theorem noUB_parseGrpcWaves [OfNat K 0] (c : Conv K) (n : Yaml) : NoUB (parseGrpcWaves c n) := by
  unfold parseGrpcWaves; no_ub'
theorem noUB_parseDiracDirection (c : Conv K) (n : Yaml) : NoUB (parseDiracDirection c n) := by
  unfold parseDiracDirection; no_ub'
theorem noUB_parseDiracSpectrum (c : Conv K) (n : Yaml) : NoUB (parseDiracSpectrum c n) := by
  unfold parseDiracSpectrum; no_ub'
theorem noUB_parseJonswap (c : Conv K) (n : Yaml) : NoUB (parseJonswap c n) := by
  unfold parseJonswap; no_ub'
theorem noUB_parseHsTp (c : Conv K) (n : Yaml) : NoUB (parseHsTp c n) := by
  unfold parseHsTp; no_ub'
theorem noUB_parseCos2s (c : Conv K) (n : Yaml) : NoUB (parseCos2s c n) := by
  unfold parseCos2s; no_ub'
theorem noUB_parseAngles (c : Conv K) (n : Yaml) : NoUB (parseAngles c n) := by
  unfold parseAngles; no_ub'
theorem noUB_parseCoords (c : Conv K) (n : Yaml) : NoUB (parseCoords c n) := by
  unfold parseCoords; no_ub'
theorem noUB_parsePosition (c : Conv K) (n : Yaml) : NoUB (parsePosition c n) := by
  have h_parseAngles := @noUB_parseAngles K _ c
  have h_parseCoords := @noUB_parseCoords K _ c
  unfold parsePosition; no_ub'
theorem noUB_parseSpeed (c : Conv K) (n : Yaml) : NoUB (parseSpeed c n) := by
  unfold parseSpeed; no_ub'
theorem noUB_parsePointWithName (c : Conv K) (name : String) (n : Yaml) : NoUB (parsePointWithName c name n) := by
  have h_parseCoords := @noUB_parseCoords K _ c
  unfold parsePointWithName; no_ub'
theorem noUB_parseRows (c : Conv K) (n : Yaml) : NoUB (parseRows c n) := by
  unfold parseRows; no_ub'
theorem noUB_anyRow (n : Yaml) : NoUB (anyRow n) := by
  unfold anyRow; no_ub'
theorem noUB_parseMatrix6 (c : Conv K) (frame : String) (n : Yaml) : NoUB (parseMatrix6 c frame n) := by
  unfold parseMatrix6
  apply noUB_bind' (noUB_find _ _)
  intro o
  cases o with
  | none => exact noUB_bind' (noUB_parseRows c n) (fun _ => noUB_ok _)
  | some v =>
    apply noUB_bind' (noUB_anyRow n)
    intro b
    exact noUB_ite noUB_invalidInput (noUB_bind' (noUB_text v) (fun _ => noUB_ok _))
theorem noUB_parseDynamics (c : Conv K) (n : Yaml) : NoUB (parseDynamics c n) := by
  have h1 := @noUB_parseCoords K _ c
  have h2 := @noUB_parsePointWithName K _ c "centre of inertia"
  have h3 := @noUB_parseMatrix6 K _ c
  unfold parseDynamics; no_ub'
theorem noUB_parseModel (n : Yaml) : NoUB (parseModel n) := by
  unfold parseModel; no_ub'
theorem noUB_parseBlockable (n : Yaml) : NoUB (parseBlockable n) := by
  unfold parseBlockable; no_ub'
theorem noUB_parseInterp (n : Yaml) : NoUB (parseInterp n) := by
  unfold parseInterp; no_ub'
theorem noUB_parseQuadrature (n : Yaml) : NoUB (parseQuadrature n) := by
  unfold parseQuadrature; no_ub'
theorem noUB_parseCsvDof (n : Yaml) : NoUB (parseCsvDof n) := by
  have h1 := noUB_parseInterp
  have h2 := noUB_parseBlockable
  unfold parseCsvDof; no_ub'
theorem noUB_parseYamlDof (c : Conv K) (n : Yaml) : NoUB (parseYamlDof c n) := by
  have h_parseInterp := noUB_parseInterp
  have h_parseBlockable := noUB_parseBlockable
  unfold parseYamlDof; no_ub'
theorem noUB_parseBlockedDof (c : Conv K) (n : Yaml) : NoUB (parseBlockedDof c n) := by
  have h_parseCsvDof := noUB_parseCsvDof
  have h_parseYamlDof := @noUB_parseYamlDof K _ c
  unfold parseBlockedDof; no_ub'
theorem noUB_parseBody (c : Conv K) (n : Yaml) : NoUB (parseBody c n) := by
  have h_parseModel := noUB_parseModel
  have h_parsePosition := @noUB_parsePosition K _ c
  have h_parseSpeed := @noUB_parseSpeed K _ c
  have h_parseDynamics := @noUB_parseDynamics K _ c
  have h_parseBlockedDof := @noUB_parseBlockedDof K _ c
  unfold parseBody; no_ub'
theorem noUB_parseConstants (c : Conv K) (n : Yaml) : NoUB (parseConstants c n) := by
  unfold parseConstants; no_ub'
theorem noUB_parseCommandKeys (c : Conv K) (l : List (String × Yaml)) : NoUB (parseCommandKeys c l) := by
  induction l with
  | nil => exact noUB_ok _
  | cons y l ih =>
    obtain ⟨k, v⟩ := y
    unfold parseCommandKeys
    no_ub'
theorem noUB_parseCommandsNode (c : Conv K) (n : Yaml) : NoUB (parseCommandsNode c n) := by
  have h := noUB_parseCommandKeys c (entries n)
  unfold parseCommandsNode; no_ub'
theorem noUB_scanOne (st : Xdyn.Setup.Scan) (s : Xdyn.Setup.Str) : NoUB (Xdyn.Setup.scanOne st s) := by
  unfold Xdyn.Setup.scanOne
  no_ub'
  all_goals exact noUB_throw _
theorem noUB_foldlM {α β : Type} (f : β → α → Except Err β) (h : ∀ b a, NoUB (f b a)) (l : List α) (b : β) :
    NoUB (l.foldlM f b) := by
  induction l generalizing b with
  | nil => exact noUB_ok _
  | cons a l ih =>
    rw [List.foldlM_cons]
    exact noUB_bind (h b a) (fun b' => ih b')
theorem noUB_parseRotation (c : Conv K) (n : Yaml) : NoUB (parseRotation c n) := by
  unfold parseRotation
  refine noUB_bind' (noUB_vector c noUB_text n) (fun l => ?_)
  unfold Xdyn.Setup.readRotation
  exact noUB_ite (noUB_throw _) (noUB_bind' (noUB_foldlM _ noUB_scanOne _ _) (fun _ => noUB_ok _))
theorem noUB_parseSim [OfNat K 0] (c : Conv K) (n : Yaml) : NoUB (parseSim c n) := by
  have h_parseConstants := @noUB_parseConstants K _ c
  have h_parseBody := @noUB_parseBody K _ c
  have h_parseModel := noUB_parseModel
  have h_parseCommandsNode := @noUB_parseCommandsNode K _ c
  have h_parseRotation := @noUB_parseRotation K _ c
  unfold parseSim; no_ub'
theorem noUB_parseConstantForce (c : Conv K) (n : Yaml) : NoUB (parseConstantForce c n) := by
  unfold parseConstantForce; no_ub'
theorem noUB_parseResistance (c : Conv K) (n : Yaml) : NoUB (parseResistance c n) := by
  unfold parseResistance; no_ub'
theorem noUB_parseStationKeeping (c : Conv K) (n : Yaml) : NoUB (parseStationKeeping c n) := by
  unfold parseStationKeeping; no_ub'
theorem noUB_parseHeadingKeeping (c : Conv K) (n : Yaml) : NoUB (parseHeadingKeeping c n) := by
  unfold parseHeadingKeeping; no_ub'
theorem noUB_parsePropeller (c : Conv K) (n : Yaml) : NoUB (parsePropeller c n) := by
  have h_parsePosition := @noUB_parsePosition K _ c
  unfold parsePropeller; no_ub'
theorem noUB_parseWageningen (c : Conv K) (n : Yaml) : NoUB (parseWageningen c n) := by
  have h_parsePropeller := @noUB_parsePropeller K _ c
  unfold parseWageningen; no_ub'
theorem noUB_parseKtKq (c : Conv K) (n : Yaml) : NoUB (parseKtKq c n) := by
  have h_parsePropeller := @noUB_parsePropeller K _ c
  unfold parseKtKq; no_ub'
theorem noUB_parseRudder (c : Conv K) (n : Yaml) : NoUB (parseRudder c n) := by
  have h_parseWageningen := @noUB_parseWageningen K _ c
  have h_parseCoords := @noUB_parseCoords K _ c
  unfold parseRudder; no_ub'
theorem noUB_parseRadiation (c : Conv K) (n : Yaml) : NoUB (parseRadiation c n) := by
  have h_parseQuadrature := noUB_parseQuadrature
  have h_parseCoords := @noUB_parseCoords K _ c
  unfold parseRadiation; no_ub'
theorem noUB_parseDiffraction (c : Conv K) (n : Yaml) : NoUB (parseDiffraction c n) := by
  have h_parseCoords := @noUB_parseCoords K _ c
  unfold parseDiffraction; no_ub'
theorem noUB_parseGM (c : Conv K) (n : Yaml) : NoUB (parseGM c n) := by
  unfold parseGM; no_ub'
theorem noUB_parseLinearHydrostatic (c : Conv K) (n : Yaml) : NoUB (parseLinearHydrostatic c n) := by
  unfold parseLinearHydrostatic; no_ub'
theorem noUB_parseExpressions (c : Conv K) (l : List (String × Yaml)) : NoUB (parseExpressions c l) := by
  induction l with
  | nil => exact noUB_ok _
  | cons y l ih =>
    obtain ⟨k, v⟩ := y
    unfold parseExpressions
    no_ub'
theorem noUB_parseManeuvering (c : Conv K) (n : Yaml) : NoUB (parseManeuvering c n) := by
  have h := noUB_parseExpressions c (entries n)
  have h2 := @noUB_parsePosition K _ c
  unfold parseManeuvering; no_ub'
theorem noUB_parseGrpcForce (n : Yaml) : NoUB (parseGrpcForce n) := by
  unfold parseGrpcForce; no_ub'
theorem noUB_optional_text (n : Yaml) (k : String) : NoUB (optional text "" n k) := by no_ub'
end

/-- **C149** Whatever the file, reading it gives a result or an exception, never undefined behaviour. -/
theorem sim_never_ub [OfNat K 0] (c : Conv K) (n : Yaml) : parseSim c n ≠ .error .ub := noUB_parseSim c n

/-- **C147** The same for the sections on waves. -/
theorem waves_never_ub [OfNat K 0] (c : Conv K) (n : Yaml) :
    parseWaves c n ≠ .error .ub ∧ parseDefaultWaveModel c n ≠ .error .ub ∧ parseGrpcWaves c n ≠ .error .ub ∧
    parseDiracDirection c n ≠ .error .ub ∧ parseDiracSpectrum c n ≠ .error .ub ∧ parseJonswap c n ≠ .error .ub ∧
    parseHsTp c n ≠ .error .ub ∧ parseCos2s c n ≠ .error .ub :=
  ⟨noUB_parseWaves c n, noUB_parseDefaultWaveModel c n, noUB_parseGrpcWaves c n, noUB_parseDiracDirection c n,
    noUB_parseDiracSpectrum c n, noUB_parseJonswap c n, noUB_parseHsTp c n, noUB_parseCos2s c n⟩

/-- **C150** The same for the force models without a 6×6 matrix. -/
theorem forces_never_ub (c : Conv K) (n : Yaml) :
    parseConstantForce c n ≠ .error .ub ∧ parseResistance c n ≠ .error .ub ∧ parseStationKeeping c n ≠ .error .ub ∧
    parseHeadingKeeping c n ≠ .error .ub ∧ parseWageningen c n ≠ .error .ub ∧ parseKtKq c n ≠ .error .ub ∧
    parseRudder c n ≠ .error .ub ∧ parseRadiation c n ≠ .error .ub ∧ parseDiffraction c n ≠ .error .ub ∧
    parseGM c n ≠ .error .ub ∧ parseLinearHydrostatic c n ≠ .error .ub ∧ parseManeuvering c n ≠ .error .ub ∧
    parseGrpcForce n ≠ .error .ub :=
  ⟨noUB_parseConstantForce c n, noUB_parseResistance c n, noUB_parseStationKeeping c n, noUB_parseHeadingKeeping c n,
    noUB_parseWageningen c n, noUB_parseKtKq c n, noUB_parseRudder c n, noUB_parseRadiation c n,
    noUB_parseDiffraction c n, noUB_parseGM c n, noUB_parseLinearHydrostatic c n, noUB_parseManeuvering c n,
    noUB_parseGrpcForce n⟩

/-- **C151** (refuted) Undefined behaviour exactly when the matrix is read (from six rows, or as the name of a file, which
gives no row at all) and one of the rows has fewer than six numbers. -/
theorem damping_ub_iff (c : Conv K) (n : Yaml) : parseDamping c n = .error .ub ↔
    Key n dampingKey (fun m => ∃ r, IsMatrix6 c "" r m ∧ ∃ i, (r.rows i).length < 6) := by
  cases hm : field (parseMatrix6 c "") n dampingKey with
  | error e =>
    have hne : e ≠ .ub := by
      rintro rfl
      exact noUB_field (noUB_parseMatrix6 c "") n _ hm
    have : parseDamping c n = .error e := by
      unfold parseDamping
      rw [show field (parseMatrix6 c "") n "damping matrix at the center of gravity projected in the body frame" = .error e from hm]
      rfl
    rw [this]
    constructor
    · intro h; cases h; exact absurd rfl hne
    · rintro ⟨v, hv, r, hr, -⟩
      have : field (parseMatrix6 c "") n dampingKey = .ok r := by
        rw [field_iff]; exact ⟨v, hv, (parseMatrix6_iff c "" v r).mpr hr⟩
      rw [hm] at this; cases this
  | ok r =>
    have hk : ∀ P : Matrix6 K → Prop, Key n dampingKey (fun m => ∃ r', IsMatrix6 c "" r' m ∧ P r') ↔ P r := by
      intro P
      constructor
      · rintro ⟨v, hv, r', hr', hP⟩
        have : field (parseMatrix6 c "") n dampingKey = .ok r' := by
          rw [field_iff]; exact ⟨v, hv, (parseMatrix6_iff c "" v r').mpr hr'⟩
        rw [hm] at this; cases this; exact hP
      · intro hP
        obtain ⟨v, hv, hr⟩ := (field_iff _ _ _ _).mp hm
        exact ⟨v, hv, r, (parseMatrix6_iff c "" v r).mp hr, hP⟩
    rw [hk (fun r => ∃ i, (r.rows i).length < 6)]
    have heq : parseDamping c n = (do
        let r0 ← sixFirst (r.rows 0)
        let r1 ← sixFirst (r.rows 1)
        let r2 ← sixFirst (r.rows 2)
        let r3 ← sixFirst (r.rows 3)
        let r4 ← sixFirst (r.rows 4)
        let r5 ← sixFirst (r.rows 5)
        .ok ![r0, r1, r2, r3, r4, r5]) := by
      unfold parseDamping
      rw [show field (parseMatrix6 c "") n "damping matrix at the center of gravity projected in the body frame" = .ok r from hm]
      rfl
    rw [heq]
    constructor
    · intro h
      by_contra hno
      have hlen : ∀ i, ¬ (r.rows i).length < 6 := fun i hi => hno ⟨i, hi⟩
      have hok : ∀ i, ∃ v, sixFirst (r.rows i) = .ok v := by
        intro i
        rcases sixFirst_cases (r.rows i) with h | h
        · exact h
        · exact absurd ((sixFirst_ub _).mp h) (hlen i)
      choose v hv using hok
      rw [hv 0, hv 1, hv 2, hv 3, hv 4, hv 5] at h
      cases h
    · rintro ⟨i, hi⟩
      have hi := (sixFirst_ub _).mpr hi
      rcases sixFirst_cases (r.rows 0) with ⟨v0, h0⟩ | h0
      · rcases sixFirst_cases (r.rows 1) with ⟨v1, h1⟩ | h1
        · rcases sixFirst_cases (r.rows 2) with ⟨v2, h2⟩ | h2
          · rcases sixFirst_cases (r.rows 3) with ⟨v3, h3⟩ | h3
            · rcases sixFirst_cases (r.rows 4) with ⟨v4, h4⟩ | h4
              · rcases sixFirst_cases (r.rows 5) with ⟨v5, h5⟩ | h5
                · exfalso
                  fin_cases i
                  · exact absurd (h0.symm.trans hi) (by simp)
                  · exact absurd (h1.symm.trans hi) (by simp)
                  · exact absurd (h2.symm.trans hi) (by simp)
                  · exact absurd (h3.symm.trans hi) (by simp)
                  · exact absurd (h4.symm.trans hi) (by simp)
                  · exact absurd (h5.symm.trans hi) (by simp)
                · rw [h0, h1, h2, h3, h4, h5]; rfl
              · rw [h0, h1, h2, h3, h4]; rfl
            · rw [h0, h1, h2, h3]; rfl
          · rw [h0, h1, h2]; rfl
        · rw [h0, h1]; rfl
      · rw [h0]; rfl

/-! ### Maneuvering -/

theorem parseExpressions_iff (c : Conv K) (l : List (String × Yaml)) (hd : (l.map Prod.fst).Nodup)
    (cs : List String) (es : List (String × String)) : parseExpressions c l = .ok (cs, es) ↔
      ((∃ v, l.lookup "commands" = some v ∧ IsList c IsText cs v) ∨ (l.lookup "commands" = none ∧ cs = [])) ∧
      List.Forall₂ (fun (x : String × String) (y : String × Yaml) => x.1 = y.1 ∧ IsText x.2 y.2) es
        (l.filter (fun y => y.1 ≠ "commands" ∧ y.1 ≠ "reference frame")) := by
  induction l generalizing cs es with
  | nil => simp [parseExpressions, Prod.ext_iff, eq_comm]
  | cons y l ih =>
    obtain ⟨k, v⟩ := y
    rw [List.map_cons, List.nodup_cons] at hd
    have ih := ih hd.2
    unfold parseExpressions
    simp only [bind_iff']
    by_cases hc : k = "commands"
    · subst hc
      have hnone : l.lookup "commands" = none := by
        rw [List.lookup_eq_none_iff]
        intro p hp
        simp only [beq_eq_false_iff_ne, ne_eq, bne_iff_ne]
        intro he
        exact hd.1 (List.mem_map.mpr ⟨p, hp, by rw [he]⟩)
      rw [List.filter_cons_of_neg (by simp), List.lookup_cons_self]
      simp only [if_pos, bind_iff, vector_iff, text_iff, Except.ok.injEq, Prod.mk.injEq, Prod.exists]
      constructor
      · rintro ⟨cs', es', h, cs'', hcs, rfl, rfl⟩
        exact ⟨.inl ⟨v, rfl, hcs⟩, ((ih cs' es').mp h).2⟩
      · rintro ⟨h | h, he⟩
        · obtain ⟨v', hv, hcs⟩ := h
          rw [Option.some.injEq] at hv
          subst hv
          exact ⟨[], es, (ih [] es).mpr ⟨.inr ⟨hnone, rfl⟩, he⟩, cs, hcs, rfl, rfl⟩
        · exact absurd h.1 (by simp)
    · have hlk : List.lookup "commands" ((k, v) :: l) = l.lookup "commands" := by
        rw [List.lookup_cons]
        simp [show ("commands" == k) = false from by simpa using fun h => hc h.symm]
      rw [hlk]
      simp only [if_neg hc]
      by_cases hr : k ≠ "reference frame"
      · rw [List.filter_cons_of_pos (by simpa using ⟨hc, hr⟩), List.forall₂_cons_right_iff]
        simp only [if_pos hr, bind_iff, wrap_iff, text_iff, Except.ok.injEq, Prod.mk.injEq, Prod.exists]
        constructor
        · rintro ⟨cs', es', h, s, hs, rfl, rfl⟩
          obtain ⟨h1, h2⟩ := (ih cs' es').mp h
          exact ⟨h1, k, s, es', ⟨rfl, hs⟩, h2, rfl⟩
        · rintro ⟨h1, k', s, es', ⟨hk, hs⟩, h2, rfl⟩
          subst hk
          exact ⟨cs, es', (ih cs es').mpr ⟨h1, h2⟩, s, hs, rfl, rfl⟩
      · rw [List.filter_cons_of_neg (by simpa using fun _ => by simpa using hr)]
        simp only [if_neg hr, Except.ok.injEq, Prod.exists]
        constructor
        · rintro ⟨cs', es', h, he⟩
          rw [he] at h
          exact (ih cs es).mp h
        · intro h
          exact ⟨cs, es, (ih cs es).mpr h, rfl⟩

/-- **C154** Reading of a maneuvering model: every key but `commands` and `reference frame` (also `name` and `model`) must be
a text and is an expression of the model. -/
theorem parseManeuvering_iff (c : Conv K) (n : Yaml) (r : ManeuveringNode K)
    (hd : ∀ l, n = .map l → (l.map Prod.fst).Nodup) : parseManeuvering c n = .ok r ↔ IsManeuvering c r n := by
  simp only [parseManeuvering, bind_iff', wrap_iff, field_iff, parsePosition_iff, text_iff, Except.ok.injEq, IsManeuvering]
  constructor
  · rintro ⟨p, hp, s, hs, ⟨cs, es⟩, he, rfl⟩
    obtain ⟨l, hl⟩ := map_of_key hs
    rw [entries_map hl, parseExpressions_iff c l (hd l hl)] at he
    refine ⟨hp, hs, ?_, l, hl, he.2⟩
    rcases he.1 with ⟨v, hv, h⟩ | ⟨hv, h⟩
    · exact .inl ⟨v, ⟨l, hl, hv⟩, h⟩
    · exact .inr ⟨.inl ⟨l, hl, hv⟩, h⟩
  · rintro ⟨hp, hs, hc, l, hl, he⟩
    refine ⟨_, hp, _, hs, (r.commands, r.expressions), ?_, rfl⟩
    rw [entries_map hl, parseExpressions_iff c l (hd l hl)]
    refine ⟨?_, he⟩
    rcases hc with ⟨v, ⟨l', hl', hv⟩, h⟩ | ⟨⟨l', hl', hv⟩ | ⟨l', hl'⟩, h⟩
    · rw [hl] at hl'; cases hl'; exact .inl ⟨v, hv, h⟩
    · rw [hl] at hl'; cases hl'; exact .inr ⟨hv, h⟩
    · rw [hl] at hl'; cases hl'

/-! ### Seed -/

/-- **C155** The seed is the non-negative integer of the file, or none for `none`; a document is accepted only
in these two cases. -/
theorem parseSeed_iff (c : Conv K) (n : Yaml) (r : Option Nat) : parseSeed c n = .ok r ↔
    (∃ s, r = some s ∧ Key n "seed of the random data generator" (IsInt c (s : Int))) ∨
    (r = none ∧ Key n "seed of the random data generator" (IsText "none") ∧
      ∀ s : Nat, ¬ Key n "seed of the random data generator" (IsInt c (s : Int))) := by
  have hp := positiveInteger_iff c n "seed of the random data generator"
  unfold parseSeed
  cases h : positiveInteger c n "seed of the random data generator" with
  | ok s =>
    have hs := (hp s).mp h
    simp only [Except.ok.injEq]
    constructor
    · rintro rfl; exact .inl ⟨s, rfl, hs⟩
    · rintro (⟨s', rfl, hs'⟩ | ⟨-, -, hno⟩)
      · have := (hp s').mpr hs'
        rw [h] at this; cases this; rfl
      · exact absurd hs (hno s)
  | error e =>
    have hno : ∀ s : Nat, ¬ Key n "seed of the random data generator" (IsInt c (s : Int)) := by
      intro s hs
      have := (hp s).mpr hs
      rw [h] at this; cases this
    cases e with
    | ub => exact absurd h (noUB_positiveInteger c n _)
    | throw m =>
      cases ho : optional text "" n "seed of the random data generator" with
      | error e =>
        simp only
        constructor
        · intro h; exact absurd h (by simp [invalidInput])
        · rintro (⟨s, -, hs⟩ | ⟨-, hk, -⟩)
          · exact absurd hs (hno s)
          · have : optional text "" n "seed of the random data generator" = .ok "none" := by
              rw [optional_iff]
              simp only [text_iff]
              exact .inl hk
            rw [ho] at this; cases this
      | ok s =>
        simp only
        have ho' := (optional_iff _ _ _ _ _).mp ho
        simp only [text_iff] at ho'
        constructor
        · intro h
          by_cases hs : s = "none"
          · rw [if_pos hs, Except.ok.injEq] at h
            subst hs
            rcases ho' with hk | ⟨-, he⟩
            · exact .inr ⟨h.symm, hk, hno⟩
            · exact absurd he (by decide)
          · rw [if_neg hs] at h; exact absurd h (by simp [invalidInput])
        · rintro (⟨s, -, hs⟩ | ⟨rfl, hk, -⟩)
          · exact absurd hs (hno s)
          · have : optional text "" n "seed of the random data generator" = .ok "none" := by
              rw [optional_iff]
              simp only [text_iff]
              exact .inl hk
            rw [ho] at this
            cases this
            rfl

/-! ### Output sections -/

/-- **C153** A complete section `output` is read with models 'no waves' and 'grpc' as with model 'waves'. -/
theorem swallowed_output_partial [OfNat K 0] (c : Conv K) (n : Yaml) (r : WaveOutput K)
    (h : Key n "output" (IsWaveOutput c r)) : swallowedOutput c n = r := by
  obtain ⟨v, hv, hr⟩ := h
  have hg := (get_iff n "output" v).mpr hv
  have hp := (parseWaveOutput_iff c v r).mpr hr
  unfold swallowedOutput
  rw [hg]
  show partialWaveOutput c v = r
  simp only [parseWaveOutput, bind_iff', Except.ok.injEq] at hp
  obtain ⟨f, h1, m, h2, x1, h3, x2, h4, nx, h5, y1, h6, y2, h7, ny, h8, rfl⟩ := hp
  unfold partialWaveOutput
  simp only [h1, h2, h3, h4, h5, h6, h7, h8]

/-- **C153** Without section `output`, there is no output. -/
theorem swallowed_output_absent [OfNat K 0] (c : Conv K) (n : Yaml) (h : ∀ v, ¬ HasKey n "output" v) :
    IsNoOutput (swallowedOutput c n) := by
  unfold swallowedOutput
  cases hg : get n "output" with
  | error e => rfl
  | ok v => exact absurd ((get_iff _ _ _).mp hg) (h v)

/-- **C153** (refuted) Reading models 'no waves' and 'grpc' succeeds whatever the section `output` contains: only the
elevation (or the URL) matters. -/
theorem swallowed_output_never_fails [OfNat K 0] (c : Conv K) (n : Yaml) (z : K) (u : String) :
    (parseDefaultWaveModel c n = .ok (z, swallowedOutput c n) ↔
      Key n "constant sea elevation in NED frame" (IsQuantity c z)) ∧
    (parseGrpcWaves c n = .ok (u, swallowedOutput c n, n) ↔ Key n "url" (IsText u)) := by
  simp [parseDefaultWaveModel, parseGrpcWaves, bind_iff', field_iff, uv_iff, text_iff]

/-- **C147** Models 'no waves' and 'grpc'. -/
theorem parseDefaultWaveModel_iff [OfNat K 0] (c : Conv K) (n : Yaml) (z : K) (o : WaveOutput K) :
    parseDefaultWaveModel c n = .ok (z, o) ↔
      Key n "constant sea elevation in NED frame" (IsQuantity c z) ∧ o = swallowedOutput c n := by
  simp only [parseDefaultWaveModel, bind_iff', field_iff, uv_iff, Except.ok.injEq, Prod.mk.injEq]
  constructor
  · rintro ⟨a, ha, rfl, rfl⟩; exact ⟨ha, rfl⟩
  · rintro ⟨ha, rfl⟩; exact ⟨_, ha, rfl, rfl⟩

/-! ### Concrete documents -/

/-- Enough conversions for the documents below. -/
def tinyConv : Conv ℚ where
  num s := if s = "0" then some 0 else if s = "1" then some 1 else if s = "2" then some 2 else if s = "0.5" then some (1/2) else none
  int s := if s = "0" then some 0 else if s = "1" then some 1 else if s = "2" then some 2 else if s = "-1" then some (-1) else none
  nat s := if s = "0" then some 0 else if s = "1" then some 1 else if s = "2" then some 2 else none
  bool s := if s = "true" then some true else if s = "false" then some false else none
  unit s := if s = "m" then some 1 else if s = "km" then some 1000 else if s = "s" then some 1 else if s = "rad" then some 1
    else if s = "rad/s" then some 1 else none
  emptyList _ := false

/-- `{value: v, unit: u}` -/
def qty (v u : String) : Yaml := .map [("value", .scalar v), ("unit", .scalar u)]

def yes {α : Type} (p : α → Bool) : Except Err α → Bool
  | .ok r => p r
  | .error _ => false

def seaState : Yaml := .map [
  ("model", .scalar "airy"), ("depth", qty "2" "km"), ("seed of the random data generator", .scalar "none"),
  ("stretching", .map [("delta", .scalar "0"), ("h", qty "1" "m")]),
  ("directional spreading", .map [("type", .scalar "dirac"), ("waves propagating to", qty "0.5" "rad")]),
  ("spectral density", .map [("type", .scalar "jonswap"), ("Hs", qty "2" "m"), ("Tp", qty "1" "s"), ("gamma", .scalar "1")])]

def outputNode : Yaml := .map [("frame of reference", .scalar "NED"), ("mesh", .map [
  ("xmin", qty "0" "m"), ("xmax", qty "1" "m"), ("nx", .scalar "2"), ("ymin", qty "0" "m"), ("ymax", qty "2" "km"), ("ny", .scalar "1")])]

def waveDoc : Yaml := .map [
  ("discretization", .map [("n", .scalar "2"), ("omega min", qty "0.5" "rad/s"), ("omega max", qty "2" "rad/s"), ("energy fraction", .scalar "1")]),
  ("spectra", .seq [seaState]), ("output", outputNode)]

example : yes (fun r => r.discretization.n = 2 && r.discretization.omegaMax = 2 && r.output.ymax = 2000 &&
    r.spectra.map (fun s => s.depth) = [2000] && r.spectra.map (fun s => s.stretching.h) = [1]) (parseWaves tinyConv waveDoc) = true := by
  decide +kernel
example : ∃ r, IsWaves tinyConv r waveDoc := by
  have : yes (fun _ => true) (parseWaves tinyConv waveDoc) = true := by decide +kernel
  cases h : parseWaves tinyConv waveDoc with
  | ok r => exact ⟨r, (parseWaves_iff _ _ _).mp h⟩
  | error e => rw [h] at this; cases this
example : yes (fun r => r.isNone) (parseSeed tinyConv seaState) = true := by decide +kernel
example : yes (fun r => r == some 2) (parseSeed tinyConv (.map [("seed of the random data generator", .scalar "2")])) = true := by
  decide +kernel
example : yes (fun _ => true) (parseSeed tinyConv (.map [("seed of the random data generator", .scalar "-1")])) = false := by
  decide +kernel

/-- A row of `k` ones. -/
def ones (k : Nat) : Yaml := .seq (List.replicate k (.scalar "1"))
def dampingDoc (k : Nat) : Yaml := .map [(dampingKey, .map [("row 1", ones 6), ("row 2", ones 6), ("row 3", ones 6),
  ("row 4", ones 6), ("row 5", ones 6), ("row 6", ones k)])]

example : yes (fun M => M 5 5 == 1) (parseDamping tinyConv (dampingDoc 6)) = true := by decide +kernel

/-- **C151** (refuted) With five numbers in the last row, undefined behaviour. -/
theorem short_row_is_ub : parseDamping tinyConv (dampingDoc 5) = .error .ub := by
  have h : (match parseDamping tinyConv (dampingDoc 5) with | .error .ub => true | _ => false) = true := by decide +kernel
  revert h
  cases parseDamping tinyConv (dampingDoc 5) with
  | ok r => intro h; cases h
  | error e => cases e with
    | ub => intro _; rfl
    | throw s => intro h; cases h

/-- **C151** (refuted) A matrix of numbers that is in a file: undefined behaviour. -/
theorem hdb_damping_is_ub (c : Conv K) (f : String) :
    parseDamping c (.map [(dampingKey, .map [("from hdb", .scalar f)])]) = .error .ub := by
  rw [damping_ub_iff]
  refine ⟨_, ⟨_, rfl, by rw [List.lookup_cons_self]⟩, { readFromFile := true, hdb := f, frame := "", rows := fun _ => [] }, ?_, 0, by simp⟩
  have lacks : ∀ k : String, k ≠ "from hdb" → Lacks (.map [("from hdb", .scalar f)]) k := by
    intro k hk
    refine .inl ⟨_, rfl, ?_⟩
    rw [List.lookup_cons, show (k == "from hdb") = false from by simpa using hk]
    rfl
  exact .inl ⟨⟨_, ⟨_, rfl, by rw [List.lookup_cons_self]⟩, rfl⟩, lacks _ (by decide), lacks _ (by decide), lacks _ (by decide),
    lacks _ (by decide), lacks _ (by decide), lacks _ (by decide), rfl, rfl, fun _ => rfl⟩

/-- **C151** (refuted) What follows the sixth number of a row is ignored. -/
theorem long_row_accepted : yes (fun M => M 5 5 == 1) (parseDamping tinyConv (dampingDoc 7)) = true := by decide +kernel

def propellerDoc (rotation : String) : Yaml := .map [("rotation", .scalar rotation), ("thrust deduction factor t", .scalar "0.5"),
  ("wake coefficient w", .scalar "0"), ("name", .scalar "port"), ("relative rotative efficiency etaR", .scalar "1"),
  ("diameter", qty "2" "m"), ("number of blades", .scalar "2"), ("blade area ratio AE/A0", .scalar "0.5"),
  ("position of propeller frame", .map [("frame", .scalar "ship"), ("x", qty "0" "m"), ("y", qty "1" "m"), ("z", qty "2" "m"),
    ("phi", qty "0" "rad"), ("theta", qty "0" "rad"), ("psi", qty "0.5" "rad")])]

/-- **C152** The two documented values of the rotation. -/
theorem documented_rotations_partial (c : Conv K) (n : Yaml) (r : Propeller K) (h : parsePropeller c n = .ok r) :
    (Key n "rotation" (IsText "clockwise") → r.clockwise = true) ∧
    (Key n "rotation" (IsText "anti-clockwise") → r.clockwise = false) := by
  obtain ⟨⟨s, ⟨v, ⟨l, hl, hv⟩, ht⟩, hs⟩, -⟩ := (parsePropeller_iff c n r).mp h
  have same : ∀ t, Key n "rotation" (IsText t) → s = t := by
    rintro t ⟨v', ⟨l', hl', hv'⟩, ht'⟩
    rw [hl] at hl'; cases hl'
    rw [hv] at hv'; cases hv'
    unfold IsText at ht ht'
    rw [ht] at ht'; cases ht'; rfl
  constructor
  · intro hk; exact hs.mpr (same _ hk)
  · intro hk
    cases hc : r.clockwise with
    | false => rfl
    | true => exact absurd ((same _ hk).symm.trans (hs.mp hc)) (by decide)

/-- **C152** (refuted) Any other text is accepted, and means anticlockwise. -/
theorem misspelt_rotation_accepted :
    yes (fun r => r.clockwise == false) (parsePropeller tinyConv (propellerDoc "Clockwise")) = true ∧
    yes (fun r => r.clockwise == false) (parsePropeller tinyConv (propellerDoc "blue")) = true := by decide +kernel
example : yes (fun r => r.propeller.clockwise && r.blades == 2 && r.propeller.position.angle.psi == 1/2)
    (parseWageningen tinyConv (propellerDoc "clockwise")) = true := by decide +kernel

def badOutput : Yaml := .map [("constant sea elevation in NED frame", qty "0" "m"), ("output",
  .map [("frame of reference", .scalar "NED"), ("mesh", .map [("xmin", qty "1" "km"), ("xmax", qty "1" "lightyear")])])]

/-- **C153** (refuted) With model 'no waves' a malformed section `output` is not reported, and part of it is used;
with model 'waves' it is reported. -/
theorem malformed_output_not_reported :
    yes (fun r => r.2.xmin == 1000 && r.2.nx == 0 && r.2.frame == "NED") (parseDefaultWaveModel tinyConv badOutput) = true ∧
    yes (fun _ => true) (parseWaves tinyConv (.map [
      ("discretization", .map [("n", .scalar "2"), ("omega min", qty "0.5" "rad/s"), ("omega max", qty "2" "rad/s"), ("energy fraction", .scalar "1")]),
      ("spectra", .seq [seaState]), ("output", .map [("frame of reference", .scalar "NED")])])) = false := by decide +kernel

def maneuveringDoc : Yaml := .map [("name", .scalar "man"), ("model", .scalar "maneuvering"),
  ("reference frame", .map [("frame", .scalar "ship"), ("x", qty "0" "m"), ("y", qty "1" "m"), ("z", qty "2" "m"),
    ("phi", qty "0" "rad"), ("theta", qty "0" "rad"), ("psi", qty "0.5" "rad")]),
  ("commands", .seq [.scalar "a", .scalar "b"]), ("X", .scalar "0.5*a"), ("Y", .scalar "u")]
example : yes (fun r => r.commands = ["a", "b"] && r.expressions = [("name", "man"), ("model", "maneuvering"), ("X", "0.5*a"), ("Y", "u")])
    (parseManeuvering tinyConv maneuveringDoc) = true := by decide +kernel

def commandsDoc : Yaml := .map [("name", .scalar "port"), ("t", .seq [.scalar "0", .scalar "1"]),
  ("rpm", .map [("unit", .scalar "rad/s"), ("values", .seq [.scalar "1", .scalar "2"])]),
  ("P/D", .map [("unit", .scalar "km"), ("values", .seq [.scalar "0.5", .scalar "2"])])]
example : yes (fun r => r.t = [0, 1] && r.commands = [("rpm", [1, 2]), ("P/D", [500, 2000])])
    (parseCommandsNode tinyConv commandsDoc) = true := by decide +kernel

def positionDoc (f : String) : Yaml := .map [("frame", .scalar f), ("x", qty "0" "m"), ("y", qty "1" "m"), ("z", qty "2" "m"),
    ("phi", qty "0" "rad"), ("theta", qty "0" "rad"), ("psi", qty "0.5" "rad")]
def simDoc : Yaml := .map [
  ("rotations convention", .seq [.scalar "psi", .scalar "theta'", .scalar "phi''"]),
  ("environmental constants", .map [("g", qty "2" "m"), ("rho", qty "1" "km"), ("nu", qty "0" "m")]),
  ("environment models", .seq [.map [("model", .scalar "no wind")]]),
  ("bodies", .seq [.map [("name", .scalar "ship"), ("position of body frame relative to mesh", positionDoc "mesh"),
    ("initial position of body frame relative to NED", positionDoc "NED"),
    ("initial velocity of body frame relative to NED", .map [("frame", .scalar "ship"), ("u", qty "2" "m"), ("v", qty "0" "m"),
      ("w", qty "0" "m"), ("p", qty "0" "rad"), ("q", qty "0" "rad"), ("r", qty "1" "rad")]),
    ("dynamics", .map [("centre of inertia", .map [("frame", .scalar "ship"), ("x", qty "0" "m"), ("y", qty "0" "m"), ("z", qty "1" "m")]),
      ("rigid body inertia matrix at the center of gravity and projected in the body frame", .map [("row 1", ones 6), ("row 2", ones 6),
        ("row 3", ones 6), ("row 4", ones 6), ("row 5", ones 6), ("row 6", ones 6)]),
      ("added mass matrix at the center of gravity and projected in the body frame", .map [("from hdb", .scalar "test.hdb")]),
      ("hydrodynamic forces calculation point in body frame", .map [("x", qty "0" "m"), ("y", qty "0" "m"), ("z", qty "2" "m")])]),
    ("external forces", .seq [.map [("model", .scalar "gravity")]]),
    ("blocked dof", .map [("from YAML", .seq [.map [("state", .scalar "u"), ("interpolation", .scalar "spline"),
      ("t", .seq [.scalar "0"]), ("value", .seq [.scalar "2"])]])])]]),
  ("commands", .seq [commandsDoc])]
example : yes (fun r => r.constants.rho = 1000 && r.commands.map (fun x => x.name) = ["port"] &&
    r.bodies.map (fun b => b.initialPosition.coordinates.z) = [2] && r.bodies.map (fun b => b.initialVelocity.u) = [2] &&
    r.bodies.map (fun b => b.dynamics.addedMass.hdb) = ["test.hdb"] && r.bodies.map (fun b => b.externalForces.map (fun m => m.model)) = [["gravity"]])
    (parseSim tinyConv simDoc) = true := by decide +kernel

end Xdyn.Input

/-
C64 - C67, C98: wave model, force models, history length, commands, default output.
-/
import Mathlib.Data.List.Infix
import Mathlib.Data.List.Forall2
import Mathlib.Data.List.Nodup
import Mathlib.Tactic.Linarith
import Mathlib.Tactic.NormNum
import Mathlib.Algebra.Order.Ring.Rat
import Mathlib.Algebra.Field.Rat
import Verif.Model.Config

namespace Xdyn.Config

/-! ### C64: at most one wave model -/

section wave
variable {M W : Type}

/-- Specification: exactly one of the parsers understands the model, as the wave `w`, and none of them
raises an error -/
def UnderstoodOnce (parsers : List (M → Except Err (Option W))) (m : M) (w : W) : Prop :=
  ∃ before p after, parsers = before ++ p :: after ∧ p m = .ok (some w) ∧
    ∀ q ∈ before ++ after, q m = .ok none

theorem foldlM_none (parsers : List (M → Except Err (Option W))) (m : M) (st : Option W × Bool)
    (h : ∀ q ∈ parsers, q m = .ok none) : parsers.foldlM (tryWaveParser m) st = .ok st := by
  induction parsers with
  | nil => rfl
  | cons p l ih =>
    simp only [List.foldlM_cons, bind, Except.bind]
    have : tryWaveParser m st p = .ok st := by
      unfold tryWaveParser
      rw [h p List.mem_cons_self]
    rw [this]
    exact ih (fun q hq => h q (List.mem_cons_of_mem _ hq))

/-- once a wave model is there, the other parsers must not understand the model -/
theorem foldlM_some (parsers : List (M → Except Err (Option W))) (m : M) (w : W) (b : Bool)
    (r : Option W × Bool) (h : parsers.foldlM (tryWaveParser m) (some w, b) = .ok r) :
    r = (some w, b) ∧ ∀ q ∈ parsers, q m = .ok none := by
  induction parsers with
  | nil => cases h; exact ⟨rfl, by simp⟩
  | cons p l ih =>
    simp only [List.foldlM_cons, bind, Except.bind] at h
    unfold tryWaveParser at h
    cases hp : p m with
    | error e => rw [hp] at h; cases h
    | ok o =>
      cases o with
      | some w' => rw [hp] at h; cases h
      | none =>
        rw [hp] at h
        obtain ⟨h1, h2⟩ := ih h
        refine ⟨h1, fun q hq => ?_⟩
        rcases List.mem_cons.mp hq with rfl | hq
        · exact hp
        · exact h2 q hq

theorem foldlM_first (parsers : List (M → Except Err (Option W))) (m : M) (r : Option W)
    (h : parsers.foldlM (tryWaveParser m) (none, false) = .ok (r, true)) :
    ∃ w, r = some w ∧ UnderstoodOnce parsers m w := by
  induction parsers with
  | nil => cases h
  | cons p l ih =>
    simp only [List.foldlM_cons, bind, Except.bind] at h
    unfold tryWaveParser at h
    cases hp : p m with
    | error e => rw [hp] at h; cases h
    | ok o =>
      cases o with
      | some w =>
        rw [hp] at h
        obtain ⟨h1, h2⟩ := foldlM_some l m w true _ h
        cases h1
        exact ⟨w, rfl, [], p, l, rfl, hp, h2⟩
      | none =>
        rw [hp] at h
        obtain ⟨w, h1, a, q, b, h2, h3, h4⟩ := ih h
        refine ⟨w, h1, p :: a, q, b, by rw [h2]; rfl, h3, ?_⟩
        intro x hx
        rcases List.mem_cons.mp hx with rfl | hx
        · exact hp
        · exact h4 x hx

theorem foldlM_once (parsers : List (M → Except Err (Option W))) (m : M) (w : W)
    (h : UnderstoodOnce parsers m w) :
    parsers.foldlM (tryWaveParser m) (none, false) = .ok (some w, true) := by
  obtain ⟨a, p, b, rfl, hp, h⟩ := h
  simp only [List.foldlM_append, List.foldlM_cons, bind, Except.bind]
  rw [foldlM_none a m _ (fun q hq => h q (List.mem_append_left _ hq))]
  simp only
  have : tryWaveParser m (none, false) p = .ok (some w, true) := by
    unfold tryWaveParser
    rw [hp]
  rw [this]
  exact foldlM_none b m _ (fun q hq => h q (List.mem_append_right _ hq))

/-- C64. The construction of the wave model succeeds exactly when there is no wave model in the input
(then there is none in the simulation) or one, that exactly one parser understands (then it is the
one of the simulation): two wave models, or one that is not understood, raise an error. -/
theorem getWave_ok_iff (parsers : List (M → Except Err (Option W))) (environment : List M)
    (r : Option W) : getWave parsers environment = .ok r ↔
      parsers ≠ [] ∧ (environment = [] ∧ r = none ∨
        ∃ m w, environment = [m] ∧ r = some w ∧ UnderstoodOnce parsers m w) := by
  unfold getWave
  by_cases hp : parsers = []
  · rw [if_pos hp]
    simp [hp]
  · rw [if_neg hp]
    constructor
    · intro h
      refine ⟨hp, ?_⟩
      cases environment with
      | nil => cases h; exact .inl ⟨rfl, rfl⟩
      | cons m l =>
        right
        simp only [List.foldlM_cons, bind, Except.bind] at h
        cases h1 : parsers.foldlM (tryWaveParser m) (none, false) with
        | error e => rw [h1] at h; cases h
        | ok s =>
          obtain ⟨r1, b⟩ := s
          rw [h1] at h
          cases b with
          | false => cases h
          | true =>
            obtain ⟨w, rfl, hu⟩ := foldlM_first parsers m r1 h1
            simp only [if_true] at h
            cases l with
            | nil => cases h; exact ⟨m, w, rfl, rfl, hu⟩
            | cons m2 l2 =>
              exfalso
              simp only [List.foldlM_cons, bind, Except.bind] at h
              cases h2 : parsers.foldlM (tryWaveParser m2) (some w, false) with
              | error e => rw [h2] at h; cases h
              | ok s2 =>
                have := (foldlM_some parsers m2 w false s2 h2).1
                subst this
                rw [h2] at h
                cases h
    · rintro ⟨_, ⟨rfl, rfl⟩ | ⟨m, w, rfl, rfl, hu⟩⟩
      · rfl
      · simp only [List.foldlM_cons, List.foldlM_nil, bind, Except.bind]
        rw [foldlM_once parsers m w hu]
        rfl

/-- C64: two wave models in the input always raise an error -/
theorem getWave_two (parsers : List (M → Except Err (Option W))) (m₁ m₂ : M) (l : List M)
    (r : Option W) : getWave parsers (m₁ :: m₂ :: l) ≠ .ok r := by
  rw [ne_eq, getWave_ok_iff]
  rintro ⟨_, ⟨h, _⟩ | ⟨m, w, h, _⟩⟩ <;> simp at h

/-- three parsers that recognise a name, like SurfaceElevationBuilder -/
def exampleParsers : List (String → Except Err (Option Nat)) :=
  [fun s => .ok (if s = "no waves" then some 1 else none),
   fun s => .ok (if s = "waves" then some 2 else none),
   fun s => .ok (if s = "grpc" then some 3 else none)]

example : UnderstoodOnce exampleParsers "waves" 2 :=
  ⟨[fun s => .ok (if s = "no waves" then some 1 else none)], _,
    [fun s => .ok (if s = "grpc" then some 3 else none)], rfl, by decide, by
    intro q hq
    simp only [List.cons_append, List.nil_append, List.mem_cons, List.not_mem_nil, or_false] at hq
    rcases hq with rfl | rfl <;> decide⟩

example : getWave exampleParsers ["waves"] = .ok (some 2) ∧
    getWave exampleParsers ["wave"] = .error invalidInput := ⟨rfl, rfl⟩

end wave

/-! ### C65: force models -/

section forces
variable {Y F C : Type}

theorem tryParse_self (p : Parser Y F) (m : Model Y) (h : m.model = p.name) :
    p.tryToParse m = (p.build m.yaml).map some := if_pos h

theorem tryParse_other (p : Parser Y F) (m : Model Y) (h : m.model ≠ p.name) :
    p.tryToParse m = .ok none := if_neg h

theorem foldlM_noparser (parsers : List (Parser Y F)) (m : Model Y) (st : List F × Bool)
    (h : m.model ∉ parsers.map (·.name)) : parsers.foldlM (tryForceParser m) st = .ok st := by
  induction parsers with
  | nil => rfl
  | cons p l ih =>
    simp only [List.map_cons, List.mem_cons, not_or] at h
    simp only [List.foldlM_cons, bind, Except.bind, tryForceParser, tryParse_other p m h.1]
    exact ih h.2

/-- Specification: the force `f` is the one the parser of the name of the model builds with its YAML -/
def Builds (parsers : List (Parser Y F)) (m : Model Y) (f : F) : Prop :=
  ∃ p ∈ parsers, p.name = m.model ∧ p.build m.yaml = .ok f

theorem addModel_ok_iff (parsers : List (Parser Y F)) (others : List (Parser Y C))
    (hn : (parsers.map (·.name)).Nodup) (L L' : List F) (m : Model Y) :
    addModel parsers others L m = .ok L' ↔ ∃ f, Builds parsers m f ∧ L' = L ++ [f] := by
  unfold addModel
  by_cases hm : m.model ∈ parsers.map (·.name)
  · obtain ⟨p, hp, hpn⟩ := List.mem_map.mp hm
    obtain ⟨a, b, rfl⟩ := List.append_of_mem hp
    simp only [List.map_append, List.map_cons] at hn
    have ha : m.model ∉ a.map (·.name) := by
      rw [← hpn]
      intro h
      exact (List.nodup_append.mp hn).2.2 _ h _ List.mem_cons_self rfl
    have hb : m.model ∉ b.map (·.name) := by
      rw [← hpn]
      exact (List.nodup_cons.mp (List.nodup_append.mp hn).2.1).1
    simp only [List.foldlM_append, List.foldlM_cons, bind, Except.bind]
    rw [foldlM_noparser a m _ ha]
    simp only [tryForceParser, tryParse_self p m hpn.symm]
    have huniq : ∀ f, Builds (a ++ p :: b) m f ↔ p.build m.yaml = .ok f := by
      intro f
      constructor
      · rintro ⟨q, hq, hqn, hqb⟩
        rcases List.mem_append.mp hq with h | h
        · exact absurd (List.mem_map.mpr ⟨q, h, hqn⟩) ha
        · rcases List.mem_cons.mp h with rfl | h
          · exact hqb
          · exact absurd (List.mem_map.mpr ⟨q, h, hqn⟩) hb
      · intro h
        exact ⟨p, hp, hpn, h⟩
    simp only [huniq]
    cases hbld : p.build m.yaml with
    | error e => simp [Except.map]
    | ok f =>
      simp only [Except.map]
      constructor
      · intro h
        rw [show List.foldlM (tryForceParser m) (L ++ [f], true) b = .ok (L ++ [f], true) from
          foldlM_noparser b m _ hb] at h
        simp only [if_true] at h
        cases h
        exact ⟨f, rfl, rfl⟩
      · rintro ⟨g, hg, rfl⟩
        cases hg
        rw [show List.foldlM (tryForceParser m) (L ++ [f], true) b = .ok (L ++ [f], true) from
          foldlM_noparser b m _ hb]
        rfl
  · rw [foldlM_noparser parsers m _ hm]
    constructor
    · intro h
      simp only [Bool.false_eq_true, if_false] at h
      split at h <;> cases h
    · rintro ⟨f, ⟨p, hp, hpn, _⟩, _⟩
      exact absurd (List.mem_map.mpr ⟨p, hp, hpn⟩) hm

/-- C65. When the names of the registered models are distinct, the construction of the forces of a
body succeeds exactly when every model of the body is registered and can be built with its YAML; the
forces are then the ones of the models, in the order of the input: none is forgotten, none is there
twice. -/
theorem forcesFrom_ok_iff (parsers : List (Parser Y F)) (others : List (Parser Y C))
    (hn : (parsers.map (·.name)).Nodup) (models : List (Model Y)) (L : List F) :
    forcesFrom parsers others models = .ok L ↔ List.Forall₂ (Builds parsers) models L := by
  have gen : ∀ (models : List (Model Y)) (L₀ L : List F),
      models.foldlM (addModel parsers others) L₀ = .ok L ↔
        ∃ L₁, L = L₀ ++ L₁ ∧ List.Forall₂ (Builds parsers) models L₁ := by
    intro models
    induction models with
    | nil =>
      intro L₀ L
      constructor
      · intro h; cases h; exact ⟨[], by simp, .nil⟩
      · rintro ⟨L₁, rfl, h⟩
        cases h
        rw [List.append_nil]; rfl
    | cons m l ih =>
      intro L₀ L
      simp only [List.foldlM_cons, bind, Except.bind]
      constructor
      · intro h
        cases ha : addModel parsers others L₀ m with
        | error e => rw [ha] at h; cases h
        | ok L' =>
          rw [ha] at h
          obtain ⟨f, hf, rfl⟩ := (addModel_ok_iff parsers others hn L₀ L' m).mp ha
          obtain ⟨L₁, rfl, h1⟩ := (ih _ _).mp h
          exact ⟨f :: L₁, by simp, .cons hf h1⟩
      · rintro ⟨L₁, rfl, h⟩
        cases h with
        | @cons _ f _ L₂ hf h =>
          rw [(addModel_ok_iff parsers others hn L₀ (L₀ ++ [f]) m).mpr ⟨f, hf, rfl⟩]
          exact (ih _ _).mpr ⟨L₂, by simp, h⟩
  unfold forcesFrom
  rw [gen]
  constructor
  · rintro ⟨L₁, rfl, h⟩; simpa using h
  · intro h; exact ⟨L, by simp, h⟩

/-- C65: a model that no parser knows raises an error, whatever its place and the other models -/
theorem forcesFrom_unknown (parsers : List (Parser Y F)) (others : List (Parser Y C))
    (hn : (parsers.map (·.name)).Nodup) (models : List (Model Y)) (m : Model Y) (hm : m ∈ models)
    (hu : m.model ∉ parsers.map (·.name)) (L : List F) : forcesFrom parsers others models ≠ .ok L := by
  intro h
  rw [forcesFrom_ok_iff parsers others hn models L] at h
  induction h with
  | nil => cases hm
  | cons hb _ ih =>
    rcases List.mem_cons.mp hm with rfl | hm
    · obtain ⟨p, hp, hpn, _⟩ := hb
      exact hu (List.mem_map.mpr ⟨p, hp, hpn⟩)
    · exact ih hm

/-- the names of the models registered by code/observers_and_api/src/simulator_api.cpp:43-72 -/
def registeredModels : List String :=
  ["grpc", "simple heading controller", "diffraction", "GM", "non-linear hydrostatic (exact)",
   "simple station-keeping controller", "Kt(J) & Kq(J)", "gravity", "linear damping",
   "linear hydrostatics", "maneuvering", "non-linear hydrostatic (fast)", "constant force",
   "quadratic damping", "wageningen B-series", "non-linear Froude-Krylov", "propeller+rudder",
   "resistance curve", "hydrostatic", "radiation damping"]

theorem registeredModels_nodup : registeredModels.Nodup := by decide +kernel

/-- a parser of every registered model that keeps its YAML -/
def exampleForceParsers : List (Parser Nat (String × Nat)) :=
  registeredModels.map fun n => ⟨n.toList, fun y => if y = 0 then .error invalidInput else .ok (n, y)⟩

example : (exampleForceParsers.map (·.name)).Nodup := by decide +kernel

example : forcesFrom exampleForceParsers ([] : List (Parser Nat Unit))
    [⟨"gravity".toList, 3⟩, ⟨"linear damping".toList, 4⟩, ⟨"gravity".toList, 5⟩] =
      .ok [("gravity", 3), ("linear damping", 4), ("gravity", 5)] := by decide +kernel

example : forcesFrom exampleForceParsers ([] : List (Parser Nat Unit))
    [⟨"gravity".toList, 3⟩, ⟨"Gravity".toList, 4⟩] =
      .error (.throw "InvalidInputException: unknown model") := by decide +kernel

end forces

/-! ### C66: length of the history -/

section history
variable {K : Type} [Field K] [LinearOrder K] [IsStrictOrderedRing K]

omit [IsStrictOrderedRing K] in
theorem maxTmax_from (l : List (Force K)) (T : K) :
    T ≤ l.foldl (fun T f => max T f.tmax) T ∧
      ∀ f ∈ l, f.tmax ≤ l.foldl (fun T f => max T f.tmax) T := by
  induction l generalizing T with
  | nil => exact ⟨le_refl _, by simp⟩
  | cons a l ih =>
    obtain ⟨h1, h2⟩ := ih (max T a.tmax)
    refine ⟨le_trans (le_max_left _ _) h1, fun f hf => ?_⟩
    rcases List.mem_cons.mp hf with rfl | hf
    · exact le_trans (le_max_right _ _) h1
    · exact h2 f hf

omit [IsStrictOrderedRing K] in
theorem maxTmax_ge (l : List (Force K)) (f : Force K) (hf : f ∈ l) : f.tmax ≤ maxTmax l :=
  (maxTmax_from l 0).2 f hf

omit [IsStrictOrderedRing K] in
theorem maxTmax_nonneg (l : List (Force K)) : 0 ≤ maxTmax l := (maxTmax_from l 0).1

/-- the second loop never shortens the history -/
theorem controlled_mono (controlled : List (List (Force K))) (m : LengthMap K) (b : Text) :
    m b ≤ controlled.foldl recordControlled m b := by
  induction controlled generalizing m with
  | nil => exact le_refl _
  | cons l ls ih =>
    refine le_trans ?_ (ih _)
    cases l with
    | nil => exact le_refl _
    | cons f l =>
      simp only [recordForces, recordControlled, LengthMap.set]
      split
      · rename_i h; rw [h]; exact le_max_right _ _
      · exact le_refl _

/-- C66. When the forces of each body are on a body of their own (the names of the bodies are
distinct), the history of each body is at least as long as what each of the forces and of the
controlled forces that act on it requires. -/
theorem history_long_enough (names : List Text) (hn : names.Nodup)
    (forces controlled : List (List (Force K)))
    (hf : List.Forall₂ (fun n l => ∀ f ∈ l, (f : Force K).body = n) names forces)
    (hc : ∀ l ∈ controlled, ∀ f ∈ l, ∀ g ∈ l, (f : Force K).body = (g : Force K).body) :
    (∀ l ∈ forces, ∀ f ∈ l, f.tmax ≤ getMaxHistoryLength forces controlled f.body) ∧
    (∀ l ∈ controlled, ∀ f ∈ l, f.tmax ≤ getMaxHistoryLength forces controlled f.body) := by
  -- first loop
  have first : ∀ (names : List Text) (forces : List (List (Force K))) (m : LengthMap K),
      names.Nodup → List.Forall₂ (fun n l => ∀ f ∈ l, (f : Force K).body = n) names forces →
      let r := forces.foldl recordForces m
      (∀ l ∈ forces, ∀ f ∈ l, f.tmax ≤ r f.body) ∧ ∀ b, b ∉ names → r b = m b := by
    intro names
    induction names with
    | nil =>
      intro forces m _ h
      cases h
      exact ⟨by simp, fun b _ => rfl⟩
    | cons n names ih =>
      intro forces m hn h
      cases h with
      | @cons _ l _ ls hl h =>
        have hnd := List.nodup_cons.mp hn
        obtain ⟨h1, h2⟩ := ih ls (recordForces m l) hnd.2 h
        refine ⟨?_, ?_⟩
        · intro l' hl' f hf
          rcases List.mem_cons.mp hl' with rfl | hl'
          · have hb : f.body ∉ names := by rw [hl f hf]; exact hnd.1
            simp only [List.foldl_cons]
            rw [h2 f.body hb]
            cases l' with
            | nil => cases hf
            | cons g l' =>
              have : f.body = g.body := by rw [hl f hf, hl g List.mem_cons_self]
              simp only [recordForces, recordControlled, LengthMap.set, this, if_true]
              exact maxTmax_ge _ f hf
          · exact h1 l' hl' f hf
        · intro b hb
          simp only [List.mem_cons, not_or] at hb
          simp only [List.foldl_cons]
          rw [h2 b hb.2]
          cases l with
          | nil => rfl
          | cons g l =>
            have : g.body = n := hl g List.mem_cons_self
            simp only [recordForces, recordControlled, LengthMap.set, this, hb.1, if_false]
  -- second loop
  have second : ∀ (controlled : List (List (Force K))) (m : LengthMap K),
      (∀ l ∈ controlled, ∀ f ∈ l, ∀ g ∈ l, (f : Force K).body = (g : Force K).body) →
      ∀ l ∈ controlled, ∀ f ∈ l, f.tmax ≤ controlled.foldl recordControlled m f.body := by
    intro controlled
    induction controlled with
    | nil => intro m _ l hl; cases hl
    | cons l ls ih =>
      intro m h l' hl' f hf
      rcases List.mem_cons.mp hl' with rfl | hl'
      · simp only [List.foldl_cons]
        refine le_trans ?_ (controlled_mono ls _ f.body)
        cases l' with
        | nil => cases hf
        | cons g l' =>
          have : f.body = g.body := h _ List.mem_cons_self f hf g List.mem_cons_self
          simp only [recordForces, recordControlled, LengthMap.set, this, if_true]
          exact le_trans (maxTmax_ge _ f hf) (le_max_left _ _)
      · exact ih _ (fun l hl => h l (List.mem_cons_of_mem _ hl)) l' hl' f hf
  obtain ⟨h1, _⟩ := first names forces (fun _ => 0) hn hf
  refine ⟨fun l hl f hff => ?_, fun l hl f hff => second controlled _ hc l hl f hff⟩
  exact le_trans (h1 l hl f hff) (controlled_mono controlled _ f.body)

/-- two bodies, three forces and one controlled force -/
example : (["ship".toList, "buoy".toList] : List Text).Nodup ∧
    List.Forall₂ (fun n l => ∀ f ∈ l, (f : Force ℚ).body = n) ["ship".toList, "buoy".toList]
      [[⟨"ship".toList, 3⟩, ⟨"ship".toList, 10⟩], [⟨"buoy".toList, 2⟩]] :=
  ⟨by decide +kernel, .cons (by simp) (.cons (by simp) .nil)⟩

/-- C66: the hypothesis on the names is needed. With two bodies of the same name, the length required
by the forces of the first one is forgotten. -/
theorem history_same_name : ∃ forces : List (List (Force ℚ)), ∃ l ∈ forces, ∃ f ∈ l,
    getMaxHistoryLength forces [] f.body < f.tmax :=
  ⟨[[⟨"a".toList, 10⟩], [⟨"a".toList, 2⟩]], [⟨"a".toList, 10⟩], by simp, ⟨"a".toList, 10⟩, by simp, by
    simp only [getMaxHistoryLength, LengthMap.set, maxTmax, recordForces, List.foldl_cons,
      List.foldl_nil, if_true]
    norm_num⟩

end history

/-! ### C67: commands -/

section commands
variable {K : Type} [Field K] [LinearOrder K]

/-- the signal of a command: a constant if there is one date, a table otherwise -/
def signalOf (c : Commands K) (values : List K) : Signal K :=
  if c.t.length = 1 then .constant (values.headD 0) else .table c.t values

/-- Specification: the commands of the input, in order: (name of the model, name of the command, signal) -/
def allCommands (l : List (Commands K)) : List ((Text × Text) × Signal K) :=
  (l.map fun c => c.commands.map fun it => ((c.name, it.1), signalOf c it.2)).flatten

theorem addCommands_eq (mk : List K → List K → Except Err Unit) (ds ds' : List (Text × Signal K))
    (c : Commands K) (h : addCommands mk ds c = .ok ds') :
    ds' = ((c.commands.map fun it => (namify it.1 c.name, signalOf c it.2)).reverse) ++ ds := by
  unfold addCommands at h
  unfold signalOf
  by_cases ht : c.t.length = 1
  · simp only [ht, if_true] at h ⊢
    generalize c.commands = l at *
    induction l generalizing ds with
    | nil => cases h; rfl
    | cons it l ih =>
      simp only [List.foldlM_cons, bind, Except.bind] at h
      cases hv : it.2 with
      | nil => rw [hv] at h; cases h
      | cons v vs =>
        rw [hv] at h
        simp only [List.head?_cons] at h
        rw [ih _ h]
        simp [hv]
  · simp only [ht, if_false] at h ⊢
    generalize c.commands = l at *
    induction l generalizing ds with
    | nil => cases h; rfl
    | cons it l ih =>
      simp only [List.foldlM_cons, bind, Except.bind] at h
      cases hv : mk c.t it.2 with
      | error e => rw [hv] at h; cases h
      | ok u =>
        rw [hv] at h
        rw [ih _ h]
        simp

theorem makeCommandListener_eq (mk : List K → List K → Except Err Unit) (l : List (Commands K))
    (ds : List (Text × Signal K)) (h : makeCommandListener mk l = .ok ds) :
    ds = ((allCommands l).map fun x => (namify x.1.2 x.1.1, x.2)).reverse := by
  have gen : ∀ (l : List (Commands K)) (ds₀ ds : List (Text × Signal K)),
      l.foldlM (addCommands mk) ds₀ = .ok ds →
      ds = ((allCommands l).map fun x => (namify x.1.2 x.1.1, x.2)).reverse ++ ds₀ := by
    intro l
    induction l with
    | nil => intro ds₀ ds h; cases h; simp [allCommands]
    | cons c l ih =>
      intro ds₀ ds h
      simp only [List.foldlM_cons, bind, Except.bind] at h
      cases ha : addCommands mk ds₀ c with
      | error e => rw [ha] at h; cases h
      | ok ds₁ =>
        rw [ha] at h
        rw [ih _ _ h, addCommands_eq mk ds₀ ds₁ c ha]
        simp [allCommands, List.map_map, Function.comp_def]
  have := gen l [] ds h
  simpa using this

/-- names without '(' are recovered from the name of the signal -/
theorem namify_injective {c c' m m' : Text} (hm : '(' ∉ m) (hm' : '(' ∉ m')
    (h : namify c m = namify c' m') : m = m' ∧ c = c' := by
  unfold namify at h
  have hp : "(".toList = ['('] := by decide +kernel
  rw [hp] at h
  have key : ∀ (m m' : Text), '(' ∉ m → '(' ∉ m' → ∀ x y : Text,
      m ++ ('(' :: x) = m' ++ ('(' :: y) → m = m' ∧ x = y := by
    intro m
    induction m with
    | nil =>
      intro m' _ h' x y e
      cases m' with
      | nil => simpa using e
      | cons a m' =>
        simp only [List.nil_append, List.cons_append, List.cons.injEq] at e
        exact absurd (by rw [← e.1]; exact List.mem_cons_self) h'
    | cons a m ih =>
      intro m' h h' x y e
      cases m' with
      | nil =>
        simp only [List.nil_append, List.cons_append, List.cons.injEq] at e
        exact absurd (by rw [e.1]; exact List.mem_cons_self) h
      | cons b m' =>
        simp only [List.cons_append, List.cons.injEq] at e
        obtain ⟨h1, h2⟩ := ih m' (fun x => h (List.mem_cons_of_mem _ x))
          (fun x => h' (List.mem_cons_of_mem _ x)) x y e.2
        exact ⟨by rw [e.1, h1], h2⟩
  have e : m ++ ('(' :: (c ++ ")".toList)) = m' ++ ('(' :: (c' ++ ")".toList)) := by
    simpa [List.append_assoc] using h
  obtain ⟨h1, h2⟩ := key m m' hm hm' _ _ e
  exact ⟨h1, List.append_cancel_right h2⟩

theorem lookup_of_unique {β : Type} (l : List (Text × β)) (k : Text) (v : β) (hm : (k, v) ∈ l)
    (hu : ∀ v', (k, v') ∈ l → v' = v) : l.lookup k = some v := by
  induction l with
  | nil => cases hm
  | cons a l ih =>
    obtain ⟨k', v'⟩ := a
    rw [List.lookup_cons]
    by_cases h : k = k'
    · subst h
      simp only [beq_self_eq_true]
      rw [hu v' List.mem_cons_self]
    · have hb : (k == k') = false := beq_eq_false_iff_ne.mpr h
      rw [hb]
      simp only
      apply ih
      · rcases List.mem_cons.mp hm with e | hm
        · cases e; exact absurd rfl h
        · exact hm
      · intro v'' hv
        exact hu v'' (List.mem_cons_of_mem _ hv)

theorem lookup_none {β : Type} (l : List (Text × β)) (k : Text) (h : ∀ v, (k, v) ∉ l) :
    l.lookup k = none := by
  induction l with
  | nil => rfl
  | cons a l ih =>
    obtain ⟨k', v'⟩ := a
    rw [List.lookup_cons]
    have hb : (k == k') = false := beq_eq_false_iff_ne.mpr (by
      rintro rfl; exact h v' List.mem_cons_self)
    rw [hb]
    exact ih (fun v hv => h v (List.mem_cons_of_mem _ hv))

/-- C67. (Missing: SSC interpolation is a parameter; names with a parenthesis, `command_replaced`.) When the names of the models have no '(' and each command of each model is given once, the
value of a command at every date is the one of its own entry of the input: the value itself if there
is one date, the interpolation of its own table otherwise. The other commands of the input do not
matter. -/
theorem command_value_partial (mk : List K → List K → Except Err Unit)
    (interp : List K → List K → K → Except Err K) (l : List (Commands K))
    (ds : List (Text × Signal K)) (h : makeCommandListener mk l = .ok ds)
    (hpar : ∀ c ∈ l, '(' ∉ c.name)
    (c : Commands K) (hc : c ∈ l) (command : Text) (values : List K)
    (hcmd : (command, values) ∈ c.commands)
    (hu : ∀ c' ∈ l, c'.name = c.name → ∀ it ∈ c'.commands, it.1 = command →
      c' = c ∧ it.2 = values) (t : K) :
    getCommand interp ds c.name command t =
      if c.t.length = 1 then .ok (values.headD 0) else interp c.t values t := by
  have hds := makeCommandListener_eq mk l ds h
  have hlook : ds.lookup (namify command c.name) = some (signalOf c values) := by
    apply lookup_of_unique
    · rw [hds, List.mem_reverse, List.mem_map]
      refine ⟨((c.name, command), signalOf c values), ?_, rfl⟩
      unfold allCommands
      rw [List.mem_flatten]
      exact ⟨_, List.mem_map.mpr ⟨c, hc, rfl⟩, List.mem_map.mpr ⟨_, hcmd, rfl⟩⟩
    · intro v' hv'
      rw [hds, List.mem_reverse, List.mem_map] at hv'
      obtain ⟨⟨⟨n', cmd'⟩, s'⟩, hx, he⟩ := hv'
      unfold allCommands at hx
      rw [List.mem_flatten] at hx
      obtain ⟨_, hl', hx⟩ := hx
      obtain ⟨c', hc', rfl⟩ := List.mem_map.mp hl'
      obtain ⟨it, hit, hx⟩ := List.mem_map.mp hx
      simp only [Prod.mk.injEq] at hx he
      obtain ⟨⟨rfl, rfl⟩, rfl⟩ := hx
      obtain ⟨h1, h2⟩ := namify_injective (hpar c' hc') (hpar c hc) he.1
      obtain ⟨rfl, h3⟩ := hu c' hc' h1 it hit h2
      rw [← he.2, h3]
  unfold getCommand
  rw [hlook]
  simp only
  unfold signalOf
  by_cases ht : c.t.length = 1
  · rw [if_pos ht, if_pos ht]; rfl
  · rw [if_neg ht, if_neg ht]; rfl

/-- C67: a command that is not in the input raises an error instead of being given a value -/
theorem command_missing (mk : List K → List K → Except Err Unit)
    (interp : List K → List K → K → Except Err K) (l : List (Commands K))
    (ds : List (Text × Signal K)) (h : makeCommandListener mk l = .ok ds)
    (hpar : ∀ c ∈ l, '(' ∉ c.name) (model command : Text) (hm : '(' ∉ model)
    (hno : ∀ c ∈ l, c.name = model → ∀ it ∈ c.commands, it.1 ≠ command) (t : K) :
    getCommand interp ds model command t = .error invalidInput := by
  have hds := makeCommandListener_eq mk l ds h
  unfold getCommand
  rw [lookup_none]
  intro v hv
  rw [hds, List.mem_reverse, List.mem_map] at hv
  obtain ⟨⟨⟨n', cmd'⟩, s'⟩, hx, he⟩ := hv
  unfold allCommands at hx
  rw [List.mem_flatten] at hx
  obtain ⟨_, hl', hx⟩ := hx
  obtain ⟨c', hc', rfl⟩ := List.mem_map.mp hl'
  obtain ⟨it, hit, hx⟩ := List.mem_map.mp hx
  simp only [Prod.mk.injEq] at hx he
  obtain ⟨⟨rfl, rfl⟩, rfl⟩ := hx
  obtain ⟨h1, h2⟩ := namify_injective (hpar c' hc') hm he.1
  exact hno c' hc' h1 it hit h2

/-- C67: in the map handed to a force model, the value of each of its own commands is the one of
`getCommand`: the other signals of the data source (including the ones of the same name) do not
replace it. -/
theorem getCommands_own (interp : List K → List K → K → Except Err K) (ds : List (Text × Signal K))
    (all : List (Text × K)) (model : Text) (commands : List Text) (t : K) (m : List (Text × K))
    (h : getCommands interp ds all model commands t = .ok m) (c : Text) (hc : c ∈ commands) :
    ∃ v, getCommand interp ds model c t = .ok v ∧ m.lookup c = some v := by
  unfold getCommands at h
  split at h
  · cases h
  · rename_i own hown
    cases h
    induction commands generalizing own with
    | nil => cases hc
    | cons a l ih =>
      simp only [List.mapM_cons, bind, Except.bind, pure, Except.pure] at hown
      cases ha : getCommand interp ds model a t with
      | error e => rw [ha] at hown; cases hown
      | ok v =>
        rw [ha] at hown
        simp only [Except.map] at hown
        split at hown
        · cases hown
        · rename_i own' hown'
          cases hown
          simp only [List.cons_append, List.lookup_cons]
          by_cases hca : c = a
          · subst hca
            exact ⟨v, ha, by simp⟩
          · have hb : (c == a) = false := beq_eq_false_iff_ne.mpr hca
            rw [hb]
            rcases List.mem_cons.mp hc with e | hc
            · exact absurd e hca
            · exact ih hc own' hown'

/-- two models with a command of the same name, one constant and one with two dates -/
def exampleCommands : List (Commands ℚ) :=
  [⟨"propeller".toList, [0], [("rpm".toList, [3]), ("P/D".toList, [7/10])]⟩,
   ⟨"bow".toList, [0, 10], [("rpm".toList, [1, 2])]⟩]

example : ∃ ds, makeCommandListener (fun _ _ => .ok ()) exampleCommands = .ok ds ∧
    (∀ c ∈ exampleCommands, '(' ∉ c.name) ∧
    getCommand (fun _ v t => .ok (v.getD 0 0 + t / 10 * (v.getD 1 0 - v.getD 0 0))) ds
      "propeller".toList "rpm".toList 5 = .ok 3 ∧
    getCommand (fun _ v t => .ok (v.getD 0 0 + t / 10 * (v.getD 1 0 - v.getD 0 0))) ds
      "bow".toList "rpm".toList 5 = .ok (3/2) := by
  refine ⟨[(namify "rpm".toList "bow".toList, .table [0, 10] [1, 2]),
    (namify "P/D".toList "propeller".toList, .constant (7/10)),
    (namify "rpm".toList "propeller".toList, .constant 3)], rfl, by decide +kernel, ?_, ?_⟩
  · decide +kernel
  · decide +kernel

/-- C67, refutation when a name has a '(': the command 'c' of the model 'a(b' and the command
'b(c' of the model 'a' are the same signal -/
theorem namify_ambiguous : namify "c".toList "a(b".toList = namify "b(c".toList "a".toList := by
  decide +kernel

/-- C67, refutation: then, the command of a model is replaced by the one of another model -/
theorem command_replaced : ∃ ds,
    makeCommandListener (fun _ _ => .ok ())
      [⟨"a".toList, [0], [("b(c".toList, [(1 : ℚ)])]⟩, ⟨"a(b".toList, [0], [("c".toList, [2])]⟩] = .ok ds ∧
    getCommand (fun _ _ _ => .ok 0) ds "a".toList "b(c".toList 0 = .ok 2 :=
  ⟨[(namify "c".toList "a(b".toList, .constant 2), (namify "b(c".toList "a".toList, .constant 1)],
    rfl, by decide +kernel⟩

end commands

/-! ### C98: default output -/

/-- C98. Without an output section, the date and the sixteen states of every body are written, body by
body in the order of the input: 1 + 16 columns per body, column 1 + 16 b + k being the state number k
of the body number b. -/
theorem defaultOutputter_data (bodies : List Text) (filename : Text) (out : Output)
    (h : defaultOutputter bodies filename = .ok out) :
    out.data.length = 1 + 16 * bodies.length ∧ out.data[0]? = some ['t'] ∧
      ∀ b (hb : b < bodies.length) (k : Nat) (hk : k < 16),
        out.data[1 + 16 * b + k]? =
          some ((stateNames[k]'(by simpa [stateNames] using hk)).toList ++ ['('] ++ bodies[b] ++ [')']) := by
  have hempty (o : Output) (h : fromFilename filename = .ok o) : o.data = [] := by
    unfold fromFilename at h
    repeat' split at h
    all_goals first
      | (cases h; done)
      | (cases h; rfl)
      | skip
    unfold fromUrl at h
    split at h
    · cases h
    · split at h
      · cases h
      · split at h
        · cases h
        · split at h
          · cases h
          · cases h; rfl
  unfold defaultOutputter at h
  split at h
  · cases h
  · rename_i o ho
    cases h
    have ht : "t".toList = ['t'] := by decide +kernel
    have hlp : "(".toList = ['('] := by decide +kernel
    have hrp : ")".toList = [')'] := by decide +kernel
    simp only [hempty o ho, List.nil_append, ht]
    have hlen : ∀ l : List Text,
        ((l.map fun b => stateNames.map fun v => customize v.toList b).flatten).length =
          16 * l.length := by
      intro l
      induction l with
      | nil => rfl
      | cons a l ih =>
        simp only [List.map_cons, List.flatten_cons, List.length_append, List.length_map, ih,
          List.length_cons]
        simp only [stateNames, List.length_cons, List.length_nil]
        omega
    refine ⟨by rw [List.length_cons, hlen]; omega, rfl, ?_⟩
    intro b hb k hk
    rw [show 1 + 16 * b + k = (16 * b + k) + 1 by omega, List.getElem?_cons_succ]
    clear ho
    induction bodies generalizing b with
    | nil => simp at hb
    | cons a l ih =>
      rw [List.map_cons, List.flatten_cons]
      cases b with
      | zero =>
        rw [List.getElem?_append_left (by simp [stateNames]; omega)]
        rw [List.getElem?_map, List.getElem?_eq_getElem (by simp [stateNames]; omega)]
        simp [customize, hlp, hrp]
      | succ b =>
        have hl16 : (stateNames.map fun v => customize v.toList a).length = 16 := by
          simp [stateNames]
        rw [List.getElem?_append_right (by rw [hl16]; omega), hl16,
          show 16 * (b + 1) + k - 16 = 16 * b + k by omega]
        have := ih b (by simpa using hb)
        simpa using this

example : ∃ out, defaultOutputter ["ship".toList, "buoy".toList] "run.csv".toList = .ok out ∧
    out.format = "csv" ∧ out.data.length = 33 ∧ out.data[17]? = some "x(buoy)".toList ∧
    out.data[16]? = some "psi(ship)".toList :=
  ⟨{ format := "csv", filename := "run.csv".toList, data := "t".toList ::
      (["ship".toList, "buoy".toList].map fun b => stateNames.map fun v => customize v.toList b).flatten },
    by decide +kernel, rfl, by decide +kernel, by decide +kernel, by decide +kernel⟩

end Xdyn.Config

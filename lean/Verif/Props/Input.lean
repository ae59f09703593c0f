import Verif.Spec.InputFormat
import Mathlib.Tactic.FinCases
import Mathlib.Data.Fin.VecNotation

/-
Properties of the reading of the input files: each section is accepted exactly when it has the format of
Verif/Spec/InputFormat.lean, and what is kept is what is written.
-/

namespace Xdyn.Input

variable {K : Type} [Mul K]

/-! ### Tools -/

theorem bind_iff {α β : Type} (x : Except Err α) (f : α → Except Err β) (r : β) :
    x.bind f = .ok r ↔ ∃ a, x = .ok a ∧ f a = .ok r := by
  cases x <;> simp [Except.bind]

theorem bind_iff' {α β : Type} (x : Except Err α) (f : α → Except Err β) (r : β) :
    (x >>= f) = .ok r ↔ ∃ a, x = .ok a ∧ f a = .ok r := bind_iff x f r

theorem wrap_iff {α : Type} (x : Except Err α) (r : α) : wrap x = .ok r ↔ x = .ok r := by
  rcases x with (_ | _) | _ <;> simp [wrap, invalidInput]

theorem get_iff (n : Yaml) (k : String) (v : Yaml) : get n k = .ok v ↔ HasKey n k v := by
  rcases n with s | l | l
  · simp [get, HasKey, yamlError]
  · simp [get, HasKey, yamlError]
  · simp only [get, HasKey, Yaml.map.injEq, exists_eq_left']
    cases l.lookup k <;> simp [yamlError]

theorem find_some (n : Yaml) (k : String) (v : Yaml) : find n k = .ok (some v) ↔ HasKey n k v := by
  rcases n with s | l | l <;> simp [find, HasKey, yamlError]

theorem find_none (n : Yaml) (k : String) : find n k = .ok none ↔ Lacks n k := by
  rcases n with s | l | l <;> simp [find, Lacks, yamlError]

theorem field_iff {α : Type} (f : Yaml → Except Err α) (n : Yaml) (k : String) (r : α) :
    field f n k = .ok r ↔ Key n k (fun v => f v = .ok r) := by
  simp only [field, bind_iff, get_iff, Key]

theorem text_iff (n : Yaml) (s : String) : text n = .ok s ↔ IsText s n := by
  cases n <;> simp [text, IsText, yamlError]

theorem scalarWith_iff {α : Type} (f : String → Option α) (n : Yaml) (x : α) :
    scalarWith f n = .ok x ↔ ∃ s, n = .scalar s ∧ f s = some x := by
  rcases n with s | l | l
  · simp only [scalarWith, Yaml.scalar.injEq, exists_eq_left']
    cases f s <;> simp [yamlError]
  · simp [scalarWith, yamlError]
  · simp [scalarWith, yamlError]

theorem number_iff (c : Conv K) (n : Yaml) (x : K) : number c n = .ok x ↔ IsNumber c x n := scalarWith_iff _ _ _
theorem int_iff (c : Conv K) (n : Yaml) (x : Int) : int c n = .ok x ↔ IsInt c x n := scalarWith_iff _ _ _
theorem nat_iff (c : Conv K) (n : Yaml) (x : Nat) : nat c n = .ok x ↔ IsNat c x n := scalarWith_iff _ _ _
theorem bool_iff (c : Conv K) (n : Yaml) (x : Bool) : bool c n = .ok x ↔ IsBool c x n := scalarWith_iff _ _ _

theorem listOf_iff {α : Type} (f : Yaml → Except Err α) (l : List Yaml) (r : List α) :
    listOf f l = .ok r ↔ List.Forall₂ (fun x n => f n = .ok x) r l := by
  induction l generalizing r with
  | nil => simp [listOf, eq_comm]
  | cons n l ih =>
    simp only [listOf, bind_iff', Except.ok.injEq, List.forall₂_cons_right_iff]
    constructor
    · rintro ⟨x, hx, xs, hxs, rfl⟩
      exact ⟨x, xs, hx, (ih xs).mp hxs, rfl⟩
    · rintro ⟨x, xs, hx, hxs, rfl⟩
      exact ⟨x, hx, xs, (ih xs).mpr hxs, rfl⟩

theorem vector_iff {α : Type} (c : Conv K) (f : Yaml → Except Err α) (n : Yaml) (r : List α) :
    vector c f n = .ok r ↔ IsList c (fun x m => f m = .ok x) r n := by
  rcases n with s | l | l
  · simp only [vector, IsList]
    by_cases h : c.emptyList (.scalar s) = true <;> simp [h, yamlError, eq_comm]
  · simp only [vector, IsList, listOf_iff]
    simp
  · simp only [vector, IsList]
    by_cases h : c.emptyList (.map l) = true <;> simp [h, yamlError, eq_comm]

theorem uv_iff (c : Conv K) (n : Yaml) (x : K) : uv c n = .ok x ↔ IsQuantity c x n := by
  simp only [uv, bind_iff, bind_iff', number_iff, scalarWith_iff, get_iff, IsQuantity, Except.ok.injEq, Key]
  constructor
  · rintro ⟨v, hv, u, hu, rfl⟩
    exact ⟨v, u, hv, hu, rfl⟩
  · rintro ⟨v, u, hv, hu, rfl⟩
    exact ⟨v, hv, u, hu, rfl⟩

theorem uvs_iff (c : Conv K) (n : Yaml) (x : List K) : uvs c n = .ok x ↔ IsQuantities c x n := by
  simp only [uvs, bind_iff, bind_iff', vector_iff, number_iff, scalarWith_iff, get_iff, IsQuantities, Except.ok.injEq, Key]
  constructor
  · rintro ⟨v, hv, u, hu, rfl⟩
    exact ⟨v, u, hv, hu, rfl⟩
  · rintro ⟨v, u, hv, hu, rfl⟩
    exact ⟨v, hv, u, hu, rfl⟩

theorem optional_iff {α : Type} (f : Yaml → Except Err α) (d : α) (n : Yaml) (k : String) (r : α) :
    optional f d n k = .ok r ↔ OptKey n k (fun v => f v = .ok r) (r = d) := by
  simp only [optional, bind_iff, OptKey, Key]
  constructor
  · rintro ⟨o, ho, h⟩
    cases o with
    | none => exact Or.inr ⟨(find_none n k).mp ho, by simpa [eq_comm] using h⟩
    | some v => exact Or.inl ⟨v, (find_some n k v).mp ho, h⟩
  · rintro (⟨v, hv, h⟩ | ⟨hl, rfl⟩)
    · exact ⟨some v, (find_some n k v).mpr hv, h⟩
    · exact ⟨none, (find_none n k).mpr hl, rfl⟩

theorem eitherKey_iff {α : Type} (f : Yaml → Except Err α) (n : Yaml) (k k' : String) (r : α) :
    eitherKey f n k k' = .ok r ↔ EitherKey n k k' (fun v => f v = .ok r) := by
  simp only [eitherKey, bind_iff, EitherKey]
  constructor
  · rintro ⟨o, ho, h⟩
    cases o with
    | none => exact Or.inr ⟨(find_none n k).mp ho, (field_iff f n k' r).mp h⟩
    | some v => exact Or.inl ⟨v, (find_some n k v).mp ho, h⟩
  · rintro (⟨v, hv, h⟩ | ⟨hl, h⟩)
    · exact ⟨some v, (find_some n k v).mpr hv, h⟩
    · exact ⟨none, (find_none n k).mpr hl, (field_iff f n k' r).mpr h⟩

theorem positiveInteger_iff (c : Conv K) (n : Yaml) (k : String) (r : Nat) :
    positiveInteger c n k = .ok r ↔ Key n k (IsInt c (r : Int)) := by
  simp only [positiveInteger, bind_iff, field_iff, int_iff]
  constructor
  · rintro ⟨x, hx, h⟩
    by_cases h0 : x < 0
    · rw [if_pos h0] at h; exact absurd h (by simp [yamlError])
    · rw [if_neg h0, Except.ok.injEq] at h
      have : x = (r : Int) := by omega
      rw [← this]; exact hx
  · intro h
    exact ⟨_, h, by simp⟩

/-- Closes the equivalences between a reading function and its format. -/
macro "by_format" : tactic => `(tactic| (
  constructor
  · intro h
    repeat obtain ⟨_, _, h⟩ := h
    first | subst h | skip
    repeat' (first | assumption | rfl | apply And.intro)
  · intro h
    repeat obtain ⟨_, h⟩ := h
    repeat (refine Exists.intro _ (And.intro (by assumption) ?_))
    rfl))

theorem key_def (n : Yaml) (k : String) (P : Yaml → Prop) : Key n k P ↔ ∃ v, HasKey n k v ∧ P v := Iff.rfl

theorem coords_def (c : Conv K) (r : Coords K) (n : Yaml) : IsCoords c r n ↔
    Key n "x" (IsQuantity c r.x) ∧ Key n "y" (IsQuantity c r.y) ∧ Key n "z" (IsQuantity c r.z) := Iff.rfl

theorem pointCalled_def (c : Conv K) (name : String) (r : NamedPoint K) (n : Yaml) : IsPointCalled c name r n ↔
    r.name = name ∧ IsCoords c r.coordinates n ∧ Key n "frame" (IsText r.frame) := Iff.rfl

theorem waveOutput_def (c : Conv K) (r : WaveOutput K) (n : Yaml) : IsWaveOutput c r n ↔
    Key n "frame of reference" (IsText r.frame) ∧ ∃ m, HasKey n "mesh" m ∧
    Key m "xmin" (IsQuantity c r.xmin) ∧ Key m "xmax" (IsQuantity c r.xmax) ∧ Key m "nx" (IsInt c (r.nx : Int)) ∧
    Key m "ymin" (IsQuantity c r.ymin) ∧ Key m "ymax" (IsQuantity c r.ymax) ∧ Key m "ny" (IsInt c (r.ny : Int)) := Iff.rfl

theorem noOutput_def [OfNat K 0] (r : WaveOutput K) : IsNoOutput r ↔ r = .default := Iff.rfl

section
attribute [local irreducible] Key HasKey OptKey EitherKey Lacks IsQuantity IsNumber IsInt IsNat IsBool IsText IsList IsQuantities

/-! ### Waves -/

theorem parseDiscretization_iff (c : Conv K) (n : Yaml) (r : Discretization K) :
    parseDiscretization c n = .ok r ↔ IsDiscretization c r n := by
  simp only [parseDiscretization, IsDiscretization, bind_iff', positiveInteger_iff, field_iff, uv_iff, uvs_iff, number_iff, nat_iff, bool_iff, text_iff, wrap_iff, vector_iff, optional_iff, get_iff, eitherKey_iff, Except.ok.injEq]
  by_format
attribute [local irreducible] IsDiscretization

theorem parseStretching_iff (c : Conv K) (n : Yaml) (r : Stretch K) :
    parseStretching c n = .ok r ↔ IsStretching c r n := by
  simp only [parseStretching, IsStretching, bind_iff', positiveInteger_iff, field_iff, uv_iff, uvs_iff, number_iff, nat_iff, bool_iff, text_iff, wrap_iff, vector_iff, optional_iff, get_iff, eitherKey_iff, Except.ok.injEq, parseDiscretization_iff]
  by_format
attribute [local irreducible] IsStretching

theorem parseSpectra_iff (c : Conv K) (n : Yaml) (r : Spectra K) :
    parseSpectra c n = .ok r ↔ IsSpectra c r n := by
  simp only [parseSpectra, IsSpectra, bind_iff', positiveInteger_iff, field_iff, uv_iff, uvs_iff, number_iff, nat_iff, bool_iff, text_iff, wrap_iff, vector_iff, optional_iff, get_iff, eitherKey_iff, Except.ok.injEq, parseDiscretization_iff, parseStretching_iff]
  constructor
  · rintro ⟨m, h1, sn, h2, st, h3, dn, h4, dt, h5, s, h6, d, h7, rfl⟩
    exact ⟨h1, rfl, h2, h3, h4, h5, h6, h7⟩
  · rintro ⟨h1, h0, h2, h3, h4, h5, h6, h7⟩
    exact ⟨_, h1, _, h2, _, h3, _, h4, _, h5, _, h6, _, h7, by rw [← h0]⟩
attribute [local irreducible] IsSpectra

theorem parseWaveOutput_iff (c : Conv K) (n : Yaml) (r : WaveOutput K) :
    parseWaveOutput c n = .ok r ↔ IsWaveOutput c r n := by
  simp only [parseWaveOutput, waveOutput_def, bind_iff', positiveInteger_iff, field_iff, uv_iff, text_iff, get_iff,
    Except.ok.injEq]
  constructor
  · rintro ⟨f, h1, m, h2, x1, h3, x2, h4, nx, h5, y1, h6, y2, h7, ny, h8, rfl⟩
    exact ⟨h1, ⟨m, h2, h3, h4, h5, h6, h7, h8⟩⟩
  · rintro ⟨h1, ⟨m, h2, h3, h4, h5, h6, h7, h8⟩⟩
    exact ⟨_, h1, m, h2, _, h3, _, h4, _, h5, _, h6, _, h7, _, h8, rfl⟩

theorem parseWaves_iff [OfNat K 0] (c : Conv K) (n : Yaml) (r : WaveModel K) :
    parseWaves c n = .ok r ↔ IsWaves c r n := by
  simp only [parseWaves, bind_iff', wrap_iff, field_iff, vector_iff, parseSpectra_iff, parseDiscretization_iff, optional_iff, parseWaveOutput_iff, noOutput_def,
    Except.ok.injEq, IsWaves]
  by_format

theorem parseDiracSpectrum_iff (c : Conv K) (n : Yaml) (r : DiracSpectrum K) :
    parseDiracSpectrum c n = .ok r ↔ IsDiracSpectrum c r n := by
  simp only [parseDiracSpectrum, IsDiracSpectrum, bind_iff', positiveInteger_iff, field_iff, uv_iff, uvs_iff, number_iff, nat_iff, bool_iff, text_iff, wrap_iff, vector_iff, optional_iff, get_iff, eitherKey_iff, Except.ok.injEq, parseDiscretization_iff, parseStretching_iff, parseSpectra_iff, parseWaveOutput_iff]
  by_format
attribute [local irreducible] IsDiracSpectrum

theorem parseJonswap_iff (c : Conv K) (n : Yaml) (r : Jonswap K) :
    parseJonswap c n = .ok r ↔ IsJonswap c r n := by
  simp only [parseJonswap, IsJonswap, bind_iff', positiveInteger_iff, field_iff, uv_iff, uvs_iff, number_iff, nat_iff, bool_iff, text_iff, wrap_iff, vector_iff, optional_iff, get_iff, eitherKey_iff, Except.ok.injEq, parseDiscretization_iff, parseStretching_iff, parseSpectra_iff, parseWaveOutput_iff, parseDiracSpectrum_iff]
  by_format
attribute [local irreducible] IsJonswap

theorem parseHsTp_iff (c : Conv K) (n : Yaml) (r : HsTp K) :
    parseHsTp c n = .ok r ↔ IsHsTp c r n := by
  simp only [parseHsTp, IsHsTp, bind_iff', positiveInteger_iff, field_iff, uv_iff, uvs_iff, number_iff, nat_iff, bool_iff, text_iff, wrap_iff, vector_iff, optional_iff, get_iff, eitherKey_iff, Except.ok.injEq, parseDiscretization_iff, parseStretching_iff, parseSpectra_iff, parseWaveOutput_iff, parseDiracSpectrum_iff, parseJonswap_iff]
  by_format
attribute [local irreducible] IsHsTp

theorem parseCos2s_iff (c : Conv K) (n : Yaml) (r : Cos2s K) :
    parseCos2s c n = .ok r ↔ IsCos2s c r n := by
  simp only [parseCos2s, IsCos2s, bind_iff', positiveInteger_iff, field_iff, uv_iff, uvs_iff, number_iff, nat_iff, bool_iff, text_iff, wrap_iff, vector_iff, optional_iff, get_iff, eitherKey_iff, Except.ok.injEq, parseDiscretization_iff, parseStretching_iff, parseSpectra_iff, parseWaveOutput_iff, parseDiracSpectrum_iff, parseJonswap_iff, parseHsTp_iff]
  by_format
attribute [local irreducible] IsCos2s

/-! ### Bodies -/

theorem parseAngles_iff (c : Conv K) (n : Yaml) (r : Angles K) :
    parseAngles c n = .ok r ↔ IsAngles c r n := by
  simp only [parseAngles, IsAngles, bind_iff', positiveInteger_iff, field_iff, uv_iff, uvs_iff, number_iff, nat_iff, bool_iff, text_iff, wrap_iff, vector_iff, optional_iff, get_iff, eitherKey_iff, Except.ok.injEq, parseDiscretization_iff, parseStretching_iff, parseSpectra_iff, parseWaveOutput_iff, parseDiracSpectrum_iff, parseJonswap_iff, parseHsTp_iff, parseCos2s_iff]
  by_format
attribute [local irreducible] IsAngles

theorem parseCoords_iff (c : Conv K) (n : Yaml) (r : Coords K) :
    parseCoords c n = .ok r ↔ IsCoords c r n := by
  simp only [parseCoords, IsCoords, bind_iff', positiveInteger_iff, field_iff, uv_iff, uvs_iff, number_iff, nat_iff, bool_iff, text_iff, wrap_iff, vector_iff, optional_iff, get_iff, eitherKey_iff, Except.ok.injEq, parseDiscretization_iff, parseStretching_iff, parseSpectra_iff, parseWaveOutput_iff, parseDiracSpectrum_iff, parseJonswap_iff, parseHsTp_iff, parseCos2s_iff, parseAngles_iff]
  by_format
attribute [local irreducible] IsCoords

theorem parsePosition_iff (c : Conv K) (n : Yaml) (r : Position K) :
    parsePosition c n = .ok r ↔ IsPosition c r n := by
  simp only [parsePosition, IsPosition, bind_iff', positiveInteger_iff, field_iff, uv_iff, uvs_iff, number_iff, nat_iff, bool_iff, text_iff, wrap_iff, vector_iff, optional_iff, get_iff, eitherKey_iff, Except.ok.injEq, parseDiscretization_iff, parseStretching_iff, parseSpectra_iff, parseWaveOutput_iff, parseDiracSpectrum_iff, parseJonswap_iff, parseHsTp_iff, parseCos2s_iff, parseAngles_iff, parseCoords_iff]
  by_format
attribute [local irreducible] IsPosition

theorem parseSpeed_iff (c : Conv K) (n : Yaml) (r : Speed K) :
    parseSpeed c n = .ok r ↔ IsSpeed c r n := by
  simp only [parseSpeed, IsSpeed, bind_iff', positiveInteger_iff, field_iff, uv_iff, uvs_iff, number_iff, nat_iff, bool_iff, text_iff, wrap_iff, vector_iff, optional_iff, get_iff, eitherKey_iff, Except.ok.injEq, parseDiscretization_iff, parseStretching_iff, parseSpectra_iff, parseWaveOutput_iff, parseDiracSpectrum_iff, parseJonswap_iff, parseHsTp_iff, parseCos2s_iff, parseAngles_iff, parseCoords_iff, parsePosition_iff]
  by_format
attribute [local irreducible] IsSpeed

theorem parsePointWithName_iff (c : Conv K) (name : String) (n : Yaml) (r : NamedPoint K) :
    parsePointWithName c name n = .ok r ↔ IsPointCalled c name r n := by
  simp only [parsePointWithName, IsPointCalled, bind_iff', field_iff, text_iff, parseCoords_iff, Except.ok.injEq]
  constructor
  · rintro ⟨p, hp, f, hf, rfl⟩
    exact ⟨rfl, hp, hf⟩
  · rintro ⟨rfl, hp, hf⟩
    exact ⟨_, hp, _, hf, rfl⟩
attribute [local irreducible] IsPointCalled

theorem parsePoint_iff (c : Conv K) (n : Yaml) (r : NamedPoint K) : parsePoint c n = .ok r ↔ IsPoint c r n := by
  simp only [parsePoint, bind_iff', field_iff, text_iff, parsePointWithName_iff, IsPoint, pointCalled_def]
  constructor
  · rintro ⟨s, hs, rfl, hp, hf⟩
    exact ⟨hs, hp, hf⟩
  · rintro ⟨hs, hp, hf⟩
    exact ⟨_, hs, rfl, hp, hf⟩
attribute [local irreducible] IsPoint

theorem parseRows_iff (c : Conv K) (n : Yaml) (r : Fin 6 → List K) : parseRows c n = .ok r ↔ IsRows c r n := by
  simp only [parseRows, bind_iff', field_iff, vector_iff, number_iff, IsRows, Except.ok.injEq]
  constructor
  · rintro ⟨a, ha, b, hb, d, hd, e, he, f, hf, g, hg, rfl⟩
    exact ⟨ha, hb, hd, he, hf, hg⟩
  · rintro ⟨ha, hb, hd, he, hf, hg⟩
    refine ⟨_, ha, _, hb, _, hd, _, he, _, hf, _, hg, ?_⟩
    funext i; fin_cases i <;> rfl
attribute [local irreducible] IsRows

theorem anyRow_false (n : Yaml) : anyRow n = .ok false ↔
    Lacks n "row 1" ∧ Lacks n "row 2" ∧ Lacks n "row 3" ∧ Lacks n "row 4" ∧ Lacks n "row 5" ∧ Lacks n "row 6" := by
  simp only [anyRow, bind_iff', Except.ok.injEq, ← find_none]
  constructor
  · rintro ⟨a, ha, b, hb, d, hd, e, he, f, hf, g, hg, h⟩
    cases a <;> cases b <;> cases d <;> cases e <;> cases f <;> cases g <;> first | exact ⟨ha, hb, hd, he, hf, hg⟩ | simp at h
  · rintro ⟨ha, hb, hd, he, hf, hg⟩
    exact ⟨_, ha, _, hb, _, hd, _, he, _, hf, _, hg, rfl⟩

theorem parseMatrix6_iff (c : Conv K) (frame : String) (n : Yaml) (r : Matrix6 K) :
    parseMatrix6 c frame n = .ok r ↔ IsMatrix6 c frame r n := by
  simp only [parseMatrix6, bind_iff, IsMatrix6]
  constructor
  · rintro ⟨o, ho, h⟩
    cases o with
    | none =>
      simp only [bind_iff, parseRows_iff, Except.ok.injEq] at h
      obtain ⟨rows, hr, rfl⟩ := h
      exact Or.inr ⟨(find_none _ _).mp ho, rfl, rfl, rfl, hr⟩
    | some v =>
      simp only [bind_iff] at h
      obtain ⟨b, hb, h⟩ := h
      cases b with
      | true => exact absurd h (by simp [invalidInput])
      | false =>
        simp only [Bool.false_eq_true, if_false, bind_iff, text_iff, Except.ok.injEq] at h
        obtain ⟨f, hf, rfl⟩ := h
        obtain ⟨h1, h2, h3, h4, h5, h6⟩ := (anyRow_false n).mp hb
        exact Or.inl ⟨(key_def _ _ _).mpr ⟨v, (find_some _ _ _).mp ho, hf⟩, h1, h2, h3, h4, h5, h6, rfl, rfl, fun _ => rfl⟩
  · rintro (⟨hk, h1, h2, h3, h4, h5, h6, hr, hf, hrows⟩ | ⟨hl, hr, hh, hf, hrows⟩)
    · obtain ⟨v, hv, ht⟩ := (key_def _ _ _).mp hk
      refine ⟨some v, (find_some _ _ _).mpr hv, ?_⟩
      simp only [bind_iff]
      refine ⟨false, (anyRow_false n).mpr ⟨h1, h2, h3, h4, h5, h6⟩, ?_⟩
      simp only [Bool.false_eq_true, if_false, bind_iff, text_iff, Except.ok.injEq]
      refine ⟨_, ht, ?_⟩
      obtain ⟨a, b, d, e⟩ := r
      simp only at hr hf hrows
      subst hr hf
      congr 1
      funext i; exact (hrows i).symm
    · refine ⟨none, (find_none _ _).mpr hl, ?_⟩
      simp only [bind_iff, parseRows_iff, Except.ok.injEq]
      refine ⟨_, hrows, ?_⟩
      obtain ⟨a, b, d, e⟩ := r
      simp only at hr hf hh
      subst hr hf hh
      rfl
attribute [local irreducible] IsMatrix6

theorem parseDynamics_iff (c : Conv K) (n : Yaml) (r : Dynamics K) :
    parseDynamics c n = .ok r ↔ IsDynamics c r n := by
  simp only [parseDynamics, IsDynamics, bind_iff', positiveInteger_iff, field_iff, uv_iff, uvs_iff, number_iff, nat_iff, bool_iff, text_iff, wrap_iff, vector_iff, optional_iff, get_iff, eitherKey_iff, Except.ok.injEq, parseDiscretization_iff, parseStretching_iff, parseSpectra_iff, parseWaveOutput_iff, parseDiracSpectrum_iff, parseJonswap_iff, parseHsTp_iff, parseCos2s_iff, parseAngles_iff, parseCoords_iff, parsePosition_iff, parseSpeed_iff, parsePointWithName_iff, parseMatrix6_iff, parsePoint_iff]
  by_format
attribute [local irreducible] IsDynamics

theorem parseModel_iff (n : Yaml) (r : ModelNode) :
    parseModel n = .ok r ↔ IsModel r n := by
  simp only [parseModel, IsModel, bind_iff', positiveInteger_iff, field_iff, uv_iff, uvs_iff, number_iff, nat_iff, bool_iff, text_iff, wrap_iff, vector_iff, optional_iff, get_iff, eitherKey_iff, Except.ok.injEq, parseDiscretization_iff, parseStretching_iff, parseSpectra_iff, parseWaveOutput_iff, parseDiracSpectrum_iff, parseJonswap_iff, parseHsTp_iff, parseCos2s_iff, parseAngles_iff, parseCoords_iff, parsePosition_iff, parseSpeed_iff, parsePointWithName_iff, parseMatrix6_iff, parsePoint_iff, parseDynamics_iff]
  constructor
  · rintro ⟨m, hm, rfl⟩
    exact ⟨hm, rfl⟩
  · rintro ⟨hm, rfl⟩
    exact ⟨_, hm, rfl⟩
attribute [local irreducible] IsModel

theorem parseBlockable_iff (n : Yaml) (r : Blockable) : parseBlockable n = .ok r ↔ IsText r.word n := by
  simp only [parseBlockable, bind_iff, text_iff]
  constructor
  · rintro ⟨s, hs, h⟩
    have : s = r.word := by
      split_ifs at h <;> first | (cases h; subst_vars; rfl) | exact absurd h (by simp [invalidInput])
    rw [← this]; exact hs
  · intro h
    refine ⟨_, h, ?_⟩
    cases r <;> rfl

theorem parseInterp_iff (n : Yaml) (r : Interp) : parseInterp n = .ok r ↔ IsText r.word n := by
  simp only [parseInterp, bind_iff, text_iff]
  constructor
  · rintro ⟨s, hs, h⟩
    have : s = r.word := by
      split_ifs at h <;> first | (cases h; subst_vars; rfl) | exact absurd h (by simp [invalidInput])
    rw [← this]; exact hs
  · intro h
    refine ⟨_, h, ?_⟩
    cases r <;> rfl

theorem parseQuadrature_iff (n : Yaml) (r : Quadrature) : parseQuadrature n = .ok r ↔ IsText r.word n := by
  simp only [parseQuadrature, bind_iff, text_iff]
  constructor
  · rintro ⟨s, hs, h⟩
    have : s = r.word := by
      split_ifs at h <;> first | (cases h; subst_vars; rfl) | exact absurd h (by simp [invalidInput])
    rw [← this]; exact hs
  · intro h
    refine ⟨_, h, ?_⟩
    cases r <;> rfl

theorem parseCsvDof_iff (n : Yaml) (r : CsvDof) :
    parseCsvDof n = .ok r ↔ IsCsvDof r n := by
  simp only [parseCsvDof, IsCsvDof, bind_iff', positiveInteger_iff, field_iff, uv_iff, uvs_iff, number_iff, nat_iff, bool_iff, text_iff, wrap_iff, vector_iff, optional_iff, get_iff, eitherKey_iff, Except.ok.injEq, parseDiscretization_iff, parseStretching_iff, parseSpectra_iff, parseWaveOutput_iff, parseDiracSpectrum_iff, parseJonswap_iff, parseHsTp_iff, parseCos2s_iff, parseAngles_iff, parseCoords_iff, parsePosition_iff, parseSpeed_iff, parsePointWithName_iff, parseMatrix6_iff, parsePoint_iff, parseDynamics_iff, parseModel_iff, parseBlockable_iff, parseInterp_iff, parseQuadrature_iff]
  by_format
attribute [local irreducible] IsCsvDof

theorem parseYamlDof_iff (c : Conv K) (n : Yaml) (r : YamlDof K) :
    parseYamlDof c n = .ok r ↔ IsYamlDof c r n := by
  simp only [parseYamlDof, IsYamlDof, bind_iff', positiveInteger_iff, field_iff, uv_iff, uvs_iff, number_iff, nat_iff, bool_iff, text_iff, wrap_iff, vector_iff, optional_iff, get_iff, eitherKey_iff, Except.ok.injEq, parseDiscretization_iff, parseStretching_iff, parseSpectra_iff, parseWaveOutput_iff, parseDiracSpectrum_iff, parseJonswap_iff, parseHsTp_iff, parseCos2s_iff, parseAngles_iff, parseCoords_iff, parsePosition_iff, parseSpeed_iff, parsePointWithName_iff, parseMatrix6_iff, parsePoint_iff, parseDynamics_iff, parseModel_iff, parseBlockable_iff, parseInterp_iff, parseQuadrature_iff, parseCsvDof_iff]
  by_format
attribute [local irreducible] IsYamlDof

theorem parseBlockedDof_iff (c : Conv K) (n : Yaml) (r : BlockedDof K) :
    parseBlockedDof c n = .ok r ↔ IsBlockedDof c r n := by
  simp only [parseBlockedDof, IsBlockedDof, bind_iff', positiveInteger_iff, field_iff, uv_iff, uvs_iff, number_iff, nat_iff, bool_iff, text_iff, wrap_iff, vector_iff, optional_iff, get_iff, eitherKey_iff, Except.ok.injEq, parseDiscretization_iff, parseStretching_iff, parseSpectra_iff, parseWaveOutput_iff, parseDiracSpectrum_iff, parseJonswap_iff, parseHsTp_iff, parseCos2s_iff, parseAngles_iff, parseCoords_iff, parsePosition_iff, parseSpeed_iff, parsePointWithName_iff, parseMatrix6_iff, parsePoint_iff, parseDynamics_iff, parseModel_iff, parseBlockable_iff, parseInterp_iff, parseQuadrature_iff, parseCsvDof_iff, parseYamlDof_iff]
  by_format
attribute [local irreducible] IsBlockedDof

theorem parseBody_iff (c : Conv K) (n : Yaml) (r : BodyNode K) :
    parseBody c n = .ok r ↔ IsBody c r n := by
  simp only [parseBody, IsBody, bind_iff', positiveInteger_iff, field_iff, uv_iff, uvs_iff, number_iff, nat_iff, bool_iff, text_iff, wrap_iff, vector_iff, optional_iff, get_iff, eitherKey_iff, Except.ok.injEq, parseDiscretization_iff, parseStretching_iff, parseSpectra_iff, parseWaveOutput_iff, parseDiracSpectrum_iff, parseJonswap_iff, parseHsTp_iff, parseCos2s_iff, parseAngles_iff, parseCoords_iff, parsePosition_iff, parseSpeed_iff, parsePointWithName_iff, parseMatrix6_iff, parsePoint_iff, parseDynamics_iff, parseModel_iff, parseBlockable_iff, parseInterp_iff, parseQuadrature_iff, parseCsvDof_iff, parseYamlDof_iff, parseBlockedDof_iff]
  by_format
attribute [local irreducible] IsBody

theorem parseConstants_iff (c : Conv K) (n : Yaml) (r : Constants K) :
    parseConstants c n = .ok r ↔ IsConstants c r n := by
  simp only [parseConstants, IsConstants, bind_iff', positiveInteger_iff, field_iff, uv_iff, uvs_iff, number_iff, nat_iff, bool_iff, text_iff, wrap_iff, vector_iff, optional_iff, get_iff, eitherKey_iff, Except.ok.injEq, parseDiscretization_iff, parseStretching_iff, parseSpectra_iff, parseWaveOutput_iff, parseDiracSpectrum_iff, parseJonswap_iff, parseHsTp_iff, parseCos2s_iff, parseAngles_iff, parseCoords_iff, parsePosition_iff, parseSpeed_iff, parsePointWithName_iff, parseMatrix6_iff, parsePoint_iff, parseDynamics_iff, parseModel_iff, parseBlockable_iff, parseInterp_iff, parseQuadrature_iff, parseCsvDof_iff, parseYamlDof_iff, parseBlockedDof_iff, parseBody_iff]
  by_format
attribute [local irreducible] IsConstants

/-! ### Force models -/

theorem parseConstantForce_iff (c : Conv K) (n : Yaml) (r : ConstantForce K) :
    parseConstantForce c n = .ok r ↔ IsConstantForce c r n := by
  simp only [parseConstantForce, IsConstantForce, coords_def, bind_iff', positiveInteger_iff, field_iff, uv_iff, uvs_iff, number_iff, nat_iff, bool_iff, text_iff, wrap_iff, vector_iff, optional_iff, get_iff, eitherKey_iff, Except.ok.injEq, parseDiscretization_iff, parseStretching_iff, parseSpectra_iff, parseWaveOutput_iff, parseDiracSpectrum_iff, parseJonswap_iff, parseHsTp_iff, parseCos2s_iff, parseAngles_iff, parseCoords_iff, parsePosition_iff, parseSpeed_iff, parsePointWithName_iff, parseMatrix6_iff, parsePoint_iff, parseDynamics_iff, parseModel_iff, parseBlockable_iff, parseInterp_iff, parseQuadrature_iff, parseCsvDof_iff, parseYamlDof_iff, parseBlockedDof_iff, parseBody_iff, parseConstants_iff]
  constructor
  · rintro ⟨f, hf, x, hx, y, hy, z, hz, a, ha, b, hb, d, hd, e, he, g, hg, i, hi, rfl⟩
    exact ⟨hf, ⟨hx, hy, hz⟩, ha, hb, hd, he, hg, hi⟩
  · rintro ⟨hf, ⟨hx, hy, hz⟩, ha, hb, hd, he, hg, hi⟩
    exact ⟨_, hf, _, hx, _, hy, _, hz, _, ha, _, hb, _, hd, _, he, _, hg, _, hi, rfl⟩
attribute [local irreducible] IsConstantForce

theorem parseResistance_iff (c : Conv K) (n : Yaml) (r : Resistance K) :
    parseResistance c n = .ok r ↔ IsResistance c r n := by
  simp only [parseResistance, IsResistance, bind_iff', positiveInteger_iff, field_iff, uv_iff, uvs_iff, number_iff, nat_iff, bool_iff, text_iff, wrap_iff, vector_iff, optional_iff, get_iff, eitherKey_iff, Except.ok.injEq, parseDiscretization_iff, parseStretching_iff, parseSpectra_iff, parseWaveOutput_iff, parseDiracSpectrum_iff, parseJonswap_iff, parseHsTp_iff, parseCos2s_iff, parseAngles_iff, parseCoords_iff, parsePosition_iff, parseSpeed_iff, parsePointWithName_iff, parseMatrix6_iff, parsePoint_iff, parseDynamics_iff, parseModel_iff, parseBlockable_iff, parseInterp_iff, parseQuadrature_iff, parseCsvDof_iff, parseYamlDof_iff, parseBlockedDof_iff, parseBody_iff, parseConstants_iff, parseConstantForce_iff]
  by_format
attribute [local irreducible] IsResistance

theorem parseStationKeeping_iff (c : Conv K) (n : Yaml) (r : StationKeeping K) :
    parseStationKeeping c n = .ok r ↔ IsStationKeeping c r n := by
  simp only [parseStationKeeping, IsStationKeeping, bind_iff', positiveInteger_iff, field_iff, uv_iff, uvs_iff, number_iff, nat_iff, bool_iff, text_iff, wrap_iff, vector_iff, optional_iff, get_iff, eitherKey_iff, Except.ok.injEq, parseDiscretization_iff, parseStretching_iff, parseSpectra_iff, parseWaveOutput_iff, parseDiracSpectrum_iff, parseJonswap_iff, parseHsTp_iff, parseCos2s_iff, parseAngles_iff, parseCoords_iff, parsePosition_iff, parseSpeed_iff, parsePointWithName_iff, parseMatrix6_iff, parsePoint_iff, parseDynamics_iff, parseModel_iff, parseBlockable_iff, parseInterp_iff, parseQuadrature_iff, parseCsvDof_iff, parseYamlDof_iff, parseBlockedDof_iff, parseBody_iff, parseConstants_iff, parseConstantForce_iff, parseResistance_iff]
  by_format
attribute [local irreducible] IsStationKeeping

theorem parseHeadingKeeping_iff (c : Conv K) (n : Yaml) (r : HeadingKeeping K) :
    parseHeadingKeeping c n = .ok r ↔ IsHeadingKeeping c r n := by
  simp only [parseHeadingKeeping, IsHeadingKeeping, bind_iff', positiveInteger_iff, field_iff, uv_iff, uvs_iff, number_iff, nat_iff, bool_iff, text_iff, wrap_iff, vector_iff, optional_iff, get_iff, eitherKey_iff, Except.ok.injEq, parseDiscretization_iff, parseStretching_iff, parseSpectra_iff, parseWaveOutput_iff, parseDiracSpectrum_iff, parseJonswap_iff, parseHsTp_iff, parseCos2s_iff, parseAngles_iff, parseCoords_iff, parsePosition_iff, parseSpeed_iff, parsePointWithName_iff, parseMatrix6_iff, parsePoint_iff, parseDynamics_iff, parseModel_iff, parseBlockable_iff, parseInterp_iff, parseQuadrature_iff, parseCsvDof_iff, parseYamlDof_iff, parseBlockedDof_iff, parseBody_iff, parseConstants_iff, parseConstantForce_iff, parseResistance_iff, parseStationKeeping_iff]
  by_format
attribute [local irreducible] IsHeadingKeeping

theorem parseRadiation_iff (c : Conv K) (n : Yaml) (r : Radiation K) :
    parseRadiation c n = .ok r ↔ IsRadiation c r n := by
  simp only [parseRadiation, IsRadiation, bind_iff', positiveInteger_iff, field_iff, uv_iff, uvs_iff, number_iff, nat_iff, bool_iff, text_iff, wrap_iff, vector_iff, optional_iff, get_iff, eitherKey_iff, Except.ok.injEq, parseDiscretization_iff, parseStretching_iff, parseSpectra_iff, parseWaveOutput_iff, parseDiracSpectrum_iff, parseJonswap_iff, parseHsTp_iff, parseCos2s_iff, parseAngles_iff, parseCoords_iff, parsePosition_iff, parseSpeed_iff, parsePointWithName_iff, parseMatrix6_iff, parsePoint_iff, parseDynamics_iff, parseModel_iff, parseBlockable_iff, parseInterp_iff, parseQuadrature_iff, parseCsvDof_iff, parseYamlDof_iff, parseBlockedDof_iff, parseBody_iff, parseConstants_iff, parseConstantForce_iff, parseResistance_iff, parseStationKeeping_iff, parseHeadingKeeping_iff]
  by_format
attribute [local irreducible] IsRadiation

theorem parseDiffraction_iff (c : Conv K) (n : Yaml) (r : DiffractionNode K) :
    parseDiffraction c n = .ok r ↔ IsDiffraction c r n := by
  simp only [parseDiffraction, IsDiffraction, bind_iff', positiveInteger_iff, field_iff, uv_iff, uvs_iff, number_iff, nat_iff, bool_iff, text_iff, wrap_iff, vector_iff, optional_iff, get_iff, eitherKey_iff, Except.ok.injEq, parseDiscretization_iff, parseStretching_iff, parseSpectra_iff, parseWaveOutput_iff, parseDiracSpectrum_iff, parseJonswap_iff, parseHsTp_iff, parseCos2s_iff, parseAngles_iff, parseCoords_iff, parsePosition_iff, parseSpeed_iff, parsePointWithName_iff, parseMatrix6_iff, parsePoint_iff, parseDynamics_iff, parseModel_iff, parseBlockable_iff, parseInterp_iff, parseQuadrature_iff, parseCsvDof_iff, parseYamlDof_iff, parseBlockedDof_iff, parseBody_iff, parseConstants_iff, parseConstantForce_iff, parseResistance_iff, parseStationKeeping_iff, parseHeadingKeeping_iff, parseRadiation_iff]
  by_format
attribute [local irreducible] IsDiffraction

theorem parseLinearHydrostatic_iff (c : Conv K) (n : Yaml) (r : LinearHydrostaticNode K) :
    parseLinearHydrostatic c n = .ok r ↔ IsLinearHydrostatic c r n := by
  simp only [parseLinearHydrostatic, IsLinearHydrostatic, bind_iff', positiveInteger_iff, field_iff, uv_iff, uvs_iff, number_iff, nat_iff, bool_iff, text_iff, wrap_iff, vector_iff, optional_iff, get_iff, eitherKey_iff, Except.ok.injEq, parseDiscretization_iff, parseStretching_iff, parseSpectra_iff, parseWaveOutput_iff, parseDiracSpectrum_iff, parseJonswap_iff, parseHsTp_iff, parseCos2s_iff, parseAngles_iff, parseCoords_iff, parsePosition_iff, parseSpeed_iff, parsePointWithName_iff, parseMatrix6_iff, parsePoint_iff, parseDynamics_iff, parseModel_iff, parseBlockable_iff, parseInterp_iff, parseQuadrature_iff, parseCsvDof_iff, parseYamlDof_iff, parseBlockedDof_iff, parseBody_iff, parseConstants_iff, parseConstantForce_iff, parseResistance_iff, parseStationKeeping_iff, parseHeadingKeeping_iff, parseRadiation_iff, parseDiffraction_iff]
  constructor
  · rintro ⟨a, ha, b, hb, d, hd, e, he, f, hf, g, hg, x1, h1, x2, h2, x3, h3, x4, h4, y1, h5, y2, h6, y3, h7, y4, h8, rfl⟩
    exact ⟨ha, hb, hd, he, hf, hg, h1, h2, h3, h4, h5, h6, h7, h8⟩
  · rintro ⟨ha, hb, hd, he, hf, hg, h1, h2, h3, h4, h5, h6, h7, h8⟩
    refine ⟨_, ha, _, hb, _, hd, _, he, _, hf, _, hg, _, h1, _, h2, _, h3, _, h4, _, h5, _, h6, _, h7, _, h8, ?_⟩
    obtain ⟨z, p, t, k1, k2, k3, x, y⟩ := r
    simp only [LinearHydrostaticNode.mk.injEq, true_and]
    constructor <;> (funext i; fin_cases i <;> rfl)
attribute [local irreducible] IsLinearHydrostatic

theorem parseGrpcForce_iff (n : Yaml) (r : GrpcForce) :
    parseGrpcForce n = .ok r ↔ IsGrpcForce r n := by
  simp only [parseGrpcForce, IsGrpcForce, bind_iff', positiveInteger_iff, field_iff, uv_iff, uvs_iff, number_iff, nat_iff, bool_iff, text_iff, wrap_iff, vector_iff, optional_iff, get_iff, eitherKey_iff, Except.ok.injEq, parseDiscretization_iff, parseStretching_iff, parseSpectra_iff, parseWaveOutput_iff, parseDiracSpectrum_iff, parseJonswap_iff, parseHsTp_iff, parseCos2s_iff, parseAngles_iff, parseCoords_iff, parsePosition_iff, parseSpeed_iff, parsePointWithName_iff, parseMatrix6_iff, parsePoint_iff, parseDynamics_iff, parseModel_iff, parseBlockable_iff, parseInterp_iff, parseQuadrature_iff, parseCsvDof_iff, parseYamlDof_iff, parseBlockedDof_iff, parseBody_iff, parseConstants_iff, parseConstantForce_iff, parseResistance_iff, parseStationKeeping_iff, parseHeadingKeeping_iff, parseRadiation_iff, parseDiffraction_iff, parseLinearHydrostatic_iff]
  constructor
  · rintro ⟨m, hm, u, hu, rfl⟩
    exact ⟨hm, hu, rfl⟩
  · rintro ⟨hm, hu, rfl⟩
    exact ⟨_, hm, _, hu, rfl⟩
attribute [local irreducible] IsGrpcForce

theorem parseGM_iff (c : Conv K) (n : Yaml) (r : GMNode K) : parseGM c n = .ok r ↔ IsGM c r n := by
  simp only [parseGM, bind_iff', field_iff, uv_iff, text_iff, IsGM]
  constructor
  · rintro ⟨s, hs, x, hx, h⟩
    have : s = r.model.word ∧ x = r.rollStep := by
      split_ifs at h <;> first | (cases h; subst_vars; exact ⟨rfl, rfl⟩) | exact absurd h (by simp [invalidInput])
    obtain ⟨rfl, rfl⟩ := this
    exact ⟨hs, hx⟩
  · rintro ⟨hs, hx⟩
    refine ⟨_, hs, _, hx, ?_⟩
    obtain ⟨m, x⟩ := r
    cases m <;> rfl

end
end Xdyn.Input

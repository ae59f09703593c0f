/-
Proofs about the numbers written at each instant (C160, C161).
-/
import Verif.Model.Outputs
import Verif.Props.Body
import Mathlib.Tactic.FinCases

namespace Xdyn.Outputs
open Xdyn.Body

variable {K : Type} [Field K]

/-! ### Names -/

/-- two texts cut at the first `c` -/
theorem cut {c : Char} {p p' r r' : List Char} (h : p ++ c :: r = p' ++ c :: r') (hp : c ∉ p) (hp' : c ∉ p') : p = p' ∧ r = r' := by
  induction p generalizing p' with
  | nil =>
    cases p' with
    | nil => simpa using h
    | cons d p' =>
      simp only [List.nil_append, List.cons_append, List.cons.injEq] at h
      exact absurd h.1 (fun e => hp' (by simp [e]))
  | cons d p ih =>
    cases p' with
    | nil =>
      simp only [List.nil_append, List.cons_append, List.cons.injEq] at h
      exact absurd h.1.symm (fun e => hp (by simp [e]))
    | cons d' p' =>
      simp only [List.cons_append, List.cons.injEq] at h
      obtain ⟨rfl, h⟩ := h
      simp only [List.mem_cons, not_or] at hp hp'
      obtain ⟨rfl, rfl⟩ := ih h hp.2 hp'.2
      exact ⟨rfl, rfl⟩

/-- a name without commas -/
def NoComma (s : String) : Prop := ',' ∉ s.toList

/-- no comma in the names of the bodies and of the force models; no parenthesis in the name of an extra observation, which is
not the name of a state -/
def Clean : Quantity → Prop
  | .date => True
  | .state _ b => NoComma b
  | .effort _ f b r => NoComma f ∧ NoComma b ∧ NoComma r
  | .buoyancy _ _ _ => True
  | .lever f b => NoComma f ∧ NoComma b
  | .extra n _ b => '(' ∉ n.toList ∧ NoComma b ∧ ∀ i, n ≠ stateNames i

/-- two quantities with the same name are equal, or two centres of buoyancy, or two extra observations with the same name for the
same body -/
def Same : Quantity → Quantity → Prop
  | .buoyancy i _ _, .buoyancy j _ _ => i = j
  | .extra n _ b, .extra n' _ b' => n = n' ∧ b = b'
  | q, q' => q = q'

/-- the text of a name, cut at the first parenthesis -/
def before : Quantity → List Char
  | .date => ['t']
  | .state i _ => (stateNames i).toList
  | .effort i _ _ _ => (componentNames i).toList
  | .buoyancy i _ _ => (buoyancyNames i).toList
  | .lever _ _ => ['G', 'Z']
  | .extra n _ _ => n.toList

def after : Quantity → Option (List Char)
  | .date => none
  | .state _ b => some (b.toList ++ [')'])
  | .effort _ f b r => some (f.toList ++ ',' :: (b.toList ++ ',' :: (r.toList ++ [')'])))
  | .buoyancy _ _ _ => none
  | .lever f b => some (f.toList ++ ',' :: (b.toList ++ [')']))
  | .extra _ _ b => some (b.toList ++ [')'])

theorem stateNames_open (i : Fin 16) : '(' ∉ (stateNames i).toList := by revert i; decide
theorem componentNames_open (i : Fin 6) : '(' ∉ (componentNames i).toList := by revert i; decide
theorem buoyancyNames_open (i : Fin 3) : '(' ∉ (buoyancyNames i).toList := by revert i; decide

theorem label_toList (q : Quantity) : (label q).toList = before q ++ (match after q with | none => [] | some r => '(' :: r) := by
  cases q with
  | date => rfl
  | buoyancy i f b => simp [label, before, after]
  | lever f b =>
    simp only [label, String.toList_append, before, after]
    rw [show "GZ(".toList = ['G', 'Z', '('] from by decide, show ",".toList = [','] from by decide, show ")".toList = [')'] from by decide]
    simp
  | state i b =>
    simp only [label, String.toList_append, before, after]
    rw [show "(".toList = ['('] from by decide, show ")".toList = [')'] from by decide]
    simp
  | extra n f b =>
    simp only [label, String.toList_append, before, after]
    rw [show "(".toList = ['('] from by decide, show ")".toList = [')'] from by decide]
    simp
  | effort i f b r =>
    simp only [label, String.toList_append, before, after]
    rw [show "(".toList = ['('] from by decide, show ")".toList = [')'] from by decide, show ",".toList = [','] from by decide]
    simp

theorem before_open (q : Quantity) (h : Clean q) : '(' ∉ before q := by
  cases q with
  | date => simp [before]
  | buoyancy i f b => exact buoyancyNames_open i
  | lever f b => simp [before]
  | state i b => exact stateNames_open i
  | extra n f b => exact h.1
  | effort i f b r => exact componentNames_open i

theorem label_cut (q q' : Quantity) (h : Clean q) (h' : Clean q') (e : label q = label q') : before q = before q' ∧ after q = after q' := by
  have e' : (label q).toList = (label q').toList := by rw [e]
  rw [label_toList, label_toList] at e'
  have b := before_open q h
  have b' := before_open q' h'
  cases ha : after q with
  | none =>
    cases ha' : after q' with
    | none => simp only [ha, ha', List.append_nil] at e'; exact ⟨e', rfl⟩
    | some r' =>
      simp only [ha, ha', List.append_nil] at e'
      exact absurd (by rw [e']; simp) b
  | some r =>
    cases ha' : after q' with
    | none =>
      simp only [ha, ha', List.append_nil] at e'
      exact absurd (by rw [← e']; simp) b'
    | some r' =>
      simp only [ha, ha'] at e'
      obtain ⟨h1, h2⟩ := cut e' b b'
      exact ⟨h1, by rw [h2]⟩

theorem toList_inj {s t : String} (h : s.toList = t.toList) : s = t := String.toList_injective h

theorem close_inj {s t : List Char} (h : s ++ [')'] = t ++ [')']) : s = t := by simpa using h

theorem stateNames_inj : ∀ i j : Fin 16, stateNames i = stateNames j → i = j := by decide
theorem componentNames_inj : ∀ i j : Fin 6, componentNames i = componentNames j → i = j := by decide
theorem buoyancyNames_inj : ∀ i j : Fin 3, buoyancyNames i = buoyancyNames j → i = j := by decide
theorem date_not_buoyancy : ∀ i, (buoyancyNames i).toList ≠ ['t'] := by decide

theorem noComma_close {b : String} (h : NoComma b) : ',' ∉ b.toList ++ [')'] := by
  simp only [List.mem_append, List.mem_singleton, not_or]
  exact ⟨h, by decide⟩

/-- **C160** Two numbers written under the same name are the same quantity, if no name has a comma in it and no extra observation
has the name of a state; the only exceptions are the centres of buoyancy (whatever the body) and the extra observations of the same
name for the same body. -/
theorem same_name (q q' : Quantity) (h : Clean q) (h' : Clean q') (e : label q = label q') : Same q q' := by
  obtain ⟨e1, e2⟩ := label_cut q q' h h' e
  cases q with
  | date =>
    cases q' <;> simp only [after, reduceCtorEq] at e2
    · rfl
    · exact absurd e1.symm (date_not_buoyancy _)
  | buoyancy i f b =>
    cases q' <;> simp only [after, reduceCtorEq] at e2
    · exact absurd e1 (date_not_buoyancy _)
    · exact buoyancyNames_inj _ _ (toList_inj e1)
  | state i b =>
    cases q' with
    | date => simp [after] at e2
    | buoyancy => simp [after] at e2
    | state j b' =>
      simp only [after, Option.some.injEq] at e2
      rw [stateNames_inj i j (toList_inj e1), toList_inj (close_inj e2)]; rfl
    | extra n f b' => exact absurd (toList_inj e1).symm (h'.2.2 i)
    | lever f b' =>
      simp only [after, Option.some.injEq] at e2
      exact absurd (by rw [e2]; simp) (noComma_close h)
    | effort j f b' r =>
      simp only [after, Option.some.injEq] at e2
      exact absurd (by rw [e2]; simp) (noComma_close h)
  | extra n f b =>
    cases q' with
    | date => simp [after] at e2
    | buoyancy => simp [after] at e2
    | state j b' => exact absurd (toList_inj e1) (h.2.2 j)
    | extra n' f' b' =>
      simp only [after, Option.some.injEq] at e2
      exact ⟨toList_inj e1, toList_inj (close_inj e2)⟩
    | lever f b' =>
      simp only [after, Option.some.injEq] at e2
      exact absurd (by rw [e2]; simp) (noComma_close h.2.1)
    | effort j f b' r =>
      simp only [after, Option.some.injEq] at e2
      exact absurd (by rw [e2]; simp) (noComma_close h.2.1)
  | lever f b =>
    cases q' with
    | date => simp [after] at e2
    | buoyancy => simp [after] at e2
    | state j b' =>
      simp only [after, Option.some.injEq] at e2
      exact absurd (by rw [← e2]; simp) (noComma_close h')
    | extra n' f' b' =>
      simp only [after, Option.some.injEq] at e2
      exact absurd (by rw [← e2]; simp) (noComma_close h'.2.1)
    | lever f' b' =>
      simp only [after, Option.some.injEq] at e2
      obtain ⟨h1, h2⟩ := cut e2 h.1 h'.1
      rw [toList_inj h1, toList_inj (close_inj h2)]; rfl
    | effort j f' b' r =>
      simp only [after, Option.some.injEq] at e2
      obtain ⟨h1, h2⟩ := cut e2 h.1 h'.1
      exact absurd (by rw [h2]; simp) (noComma_close h.2)
  | effort i f b r =>
    cases q' with
    | date => simp [after] at e2
    | buoyancy => simp [after] at e2
    | state j b' =>
      simp only [after, Option.some.injEq] at e2
      exact absurd (by rw [← e2]; simp) (noComma_close h')
    | extra n' f' b' =>
      simp only [after, Option.some.injEq] at e2
      exact absurd (by rw [← e2]; simp) (noComma_close h'.2.1)
    | lever f' b' =>
      simp only [after, Option.some.injEq] at e2
      obtain ⟨h1, h2⟩ := cut e2 h.1 h'.1
      exact absurd (by rw [← h2]; simp) (noComma_close h'.2)
    | effort j f' b' r' =>
      simp only [after, Option.some.injEq] at e2
      obtain ⟨h1, h2⟩ := cut e2 h.1 h'.1
      obtain ⟨h3, h4⟩ := cut h2 h.2.1 h'.2.1
      rw [componentNames_inj i j (toList_inj e1), toList_inj h1, toList_inj h3, toList_inj (close_inj h4)]; rfl

/-! ### Values -/

/-- What is to be written at date `t`. -/
inductive Due (t : K) (bodies : List (BodyData K)) : Quantity → K → Prop
  | date : Due t bodies .date t
  | state (b : BodyData K) (i : Fin 16) : b ∈ bodies → Due t bodies (.state i b.name) (b.states i)
  | inBody (b : BodyData K) (F : Force K) (i : Fin 6) : b ∈ bodies → F ∈ b.forces → Due t bodies (.effort i F.name b.name b.name) (F.inBody i)
  | inNed (b : BodyData K) (F : Force K) (i : Fin 6) : b ∈ bodies → F ∈ b.forces → Due t bodies (.effort i F.name b.name "NED") (F.inNed i)
  | controlledInBody (b : BodyData K) (C : Controlled K) (i : Fin 6) : b ∈ bodies → C ∈ b.controlled →
      Due t bodies (.effort i C.name b.name b.name) (six C.tau i)
  | controlledInOwn (b : BodyData K) (C : Controlled K) (i : Fin 6) : b ∈ bodies → C ∈ b.controlled →
      Due t bodies (.effort i C.name b.name C.name) (six (feedInternal C.R C.P b.origin C.tau) i)
  | controlledInNed (b : BodyData K) (C : Controlled K) (i : Fin 6) : b ∈ bodies → C ∈ b.controlled →
      Due t bodies (.effort i C.name b.name "NED") (six (feedNed b.N b.pN b.origin C.tau) i)
  | blocked (b : BodyData K) (i : Fin 6) : b ∈ bodies → Due t bodies (.effort i "blocked states" b.name b.name) (b.deltaF i)
  | sumInBody (b : BodyData K) (i : Fin 6) : b ∈ bodies → Due t bodies (.effort i "sum of forces" b.name b.name) (b.sumInBody i)
  | sumInNed (b : BodyData K) (i : Fin 6) : b ∈ bodies → Due t bodies (.effort i "sum of forces" b.name "NED") (b.sumInNed i)
  | observed (b : BodyData K) (F : Force K) (q : Quantity) (v : K) : b ∈ bodies → F ∈ b.forces →
      (q, v) ∈ extraObservations F.name b.name F.kind → Due t bodies q v
  | distant (b : BodyData K) (C : Controlled K) (n : String) (v : K) : b ∈ bodies → C ∈ b.controlled → (n, v) ∈ C.extra →
      Due t bodies (.extra n C.name b.name) v

theorem mem_writeWrench (f b r : String) (W : Vec6 K) (q : Quantity) (v : K) :
    (q, v) ∈ writeWrench f b r W ↔ ∃ i, q = .effort i f b r ∧ v = W i := by
  simp only [writeWrench, List.mem_cons, Prod.mk.injEq, List.not_mem_nil, or_false]
  constructor
  · rintro (h | h | h | h | h | h)
    · exact ⟨0, h⟩
    · exact ⟨1, h⟩
    · exact ⟨2, h⟩
    · exact ⟨3, h⟩
    · exact ⟨4, h⟩
    · exact ⟨5, h⟩
  · rintro ⟨i, rfl, rfl⟩
    fin_cases i <;> simp

/-- What is written is what is due. -/
theorem mem_outputs (t : K) (bodies : List (BodyData K)) (q : Quantity) (v : K) : (q, v) ∈ outputs t bodies ↔ Due t bodies q v := by
  simp only [outputs, List.mem_cons, List.mem_append, List.mem_flatMap, Force.feed, Controlled.feed, BodyData.feedStates, mem_writeWrench,
    List.mem_map, List.mem_finRange, true_and, Prod.mk.injEq]
  constructor
  · rintro (⟨rfl, rfl⟩ | (((⟨b, hb, F, hF, h⟩ | ⟨b, hb, C, hC, h⟩) | ⟨b, hb, h⟩) | ⟨b, hb, h⟩))
    · exact .date
    · rcases h with (⟨i, rfl, rfl⟩ | ⟨i, rfl, rfl⟩) | h
      · exact .inBody b F i hb hF
      · exact .inNed b F i hb hF
      · exact .observed b F q v hb hF h
    · rcases h with ((⟨i, rfl, rfl⟩ | ⟨i, rfl, rfl⟩) | ⟨i, rfl, rfl⟩) | ⟨e, he, rfl, rfl⟩
      · exact .controlledInBody b C i hb hC
      · exact .controlledInOwn b C i hb hC
      · exact .controlledInNed b C i hb hC
      · exact .distant b C e.1 e.2 hb hC he
    · rcases h with ⟨i, rfl, rfl⟩ | ⟨i, rfl, rfl⟩
      · exact .state b i hb
      · exact .blocked b i hb
    · rcases h with ⟨i, rfl, rfl⟩ | ⟨i, rfl, rfl⟩
      · exact .sumInBody b i hb
      · exact .sumInNed b i hb
  · intro h
    cases h with
    | date => exact .inl ⟨rfl, rfl⟩
    | state b i hb => exact .inr (.inl (.inr ⟨b, hb, .inl ⟨i, rfl, rfl⟩⟩))
    | inBody b F i hb hF => exact .inr (.inl (.inl (.inl ⟨b, hb, F, hF, .inl (.inl ⟨i, rfl, rfl⟩)⟩)))
    | inNed b F i hb hF => exact .inr (.inl (.inl (.inl ⟨b, hb, F, hF, .inl (.inr ⟨i, rfl, rfl⟩)⟩)))
    | controlledInBody b C i hb hC => exact .inr (.inl (.inl (.inr ⟨b, hb, C, hC, .inl (.inl (.inl ⟨i, rfl, rfl⟩))⟩)))
    | controlledInOwn b C i hb hC => exact .inr (.inl (.inl (.inr ⟨b, hb, C, hC, .inl (.inl (.inr ⟨i, rfl, rfl⟩))⟩)))
    | controlledInNed b C i hb hC => exact .inr (.inl (.inl (.inr ⟨b, hb, C, hC, .inl (.inr ⟨i, rfl, rfl⟩)⟩)))
    | blocked b i hb => exact .inr (.inl (.inr ⟨b, hb, .inr ⟨i, rfl, rfl⟩⟩))
    | sumInBody b i hb => exact .inr (.inr ⟨b, hb, .inl ⟨i, rfl, rfl⟩⟩)
    | sumInNed b i hb => exact .inr (.inr ⟨b, hb, .inr ⟨i, rfl, rfl⟩⟩)
    | observed b F q v hb hF h => exact .inr (.inl (.inl (.inl ⟨b, hb, F, hF, .inr h⟩)))
    | distant b C n v hb hC h => exact .inr (.inl (.inl (.inr ⟨b, hb, C, hC, .inr ⟨(n, v), h, rfl, rfl⟩⟩)))

/-- the exact hydrostatic models -/
def isExact : Kind K → Bool
  | .exactHydrostatic _ _ => true
  | _ => false

/-- the names of the extra observations of a force model -/
def extraNames : Kind K → List String
  | .gm _ _ => ["GM", "GZ"]
  | _ => []

/-- Names that can be told apart: bodies and force models with different names, without commas, that are not reserved; extra
observations with different names for a given body; and at most one exact hydrostatic force model in the whole simulation. -/
structure Distinct (bodies : List (BodyData K)) : Prop where
  bodyNames : (bodies.map BodyData.name).Nodup
  noComma : ∀ b ∈ bodies, NoComma b.name
  notNed : ∀ b ∈ bodies, b.name ≠ "NED"
  forces : ∀ b ∈ bodies, (b.forces.map Force.name ++ b.controlled.map Controlled.name).Nodup
  forceNames : ∀ b ∈ bodies, ∀ f ∈ b.forces.map Force.name ++ b.controlled.map Controlled.name,
    NoComma f ∧ f ≠ "blocked states" ∧ f ≠ "sum of forces"
  controlled : ∀ b ∈ bodies, ∀ C ∈ b.controlled, C.name ≠ b.name ∧ C.name ≠ "NED"
  extraNodup : ∀ b ∈ bodies, (b.forces.flatMap (fun F => extraNames F.kind) ++ b.controlled.flatMap (fun C => C.extra.map Prod.fst)).Nodup
  extra : ∀ b ∈ bodies, ∀ C ∈ b.controlled, ∀ e ∈ C.extra, '(' ∉ e.1.toList ∧ ∀ i, e.1 ≠ stateNames i
  oneExact : ((bodies.flatMap BodyData.forces).filter (fun F => isExact F.kind)).length ≤ 1

theorem mem_of_name {α : Type} {l : List α} {f : α → String} (h : (l.map f).Nodup) {a b : α} (ha : a ∈ l) (hb : b ∈ l) (e : f a = f b) : a = b :=
  List.inj_on_of_nodup_map h ha hb e

theorem mem_extraObservations {f b : String} {k : Kind K} {q : Quantity} {v : K} (h : (q, v) ∈ extraObservations f b k) :
    (∃ B gz, k = .exactHydrostatic B gz ∧ ((∃ i, q = .buoyancy i f b ∧ v = B i) ∨ q = .lever f b ∧ v = gz)) ∨
    (∃ gz, k = .fastHydrostatic gz ∧ q = .lever f b ∧ v = gz) ∨
    (∃ GM GZ, k = .gm GM GZ ∧ (q = .extra "GM" f b ∧ v = GM ∨ q = .extra "GZ" f b ∧ v = GZ)) := by
  cases k with
  | plain => simp [extraObservations] at h
  | exactHydrostatic B gz =>
    simp only [extraObservations, List.mem_cons, Prod.mk.injEq, List.not_mem_nil, or_false] at h
    refine .inl ⟨B, gz, rfl, ?_⟩
    rcases h with h | h | h | h
    · exact .inl ⟨0, h⟩
    · exact .inl ⟨1, h⟩
    · exact .inl ⟨2, h⟩
    · exact .inr h
  | fastHydrostatic gz =>
    simp only [extraObservations, List.mem_cons, Prod.mk.injEq, List.not_mem_nil, or_false] at h
    exact .inr (.inl ⟨gz, rfl, h⟩)
  | gm GM GZ =>
    simp only [extraObservations, List.mem_cons, Prod.mk.injEq, List.not_mem_nil, or_false] at h
    exact .inr (.inr ⟨GM, GZ, rfl, h⟩)

section
variable {t : K} {bodies : List (BodyData K)}

theorem due_clean (h : Distinct bodies) {q : Quantity} {v : K} (hq : Due t bodies q v) : Clean q := by
  have ned : NoComma "NED" := by unfold NoComma; decide
  have hf : ∀ b ∈ bodies, ∀ F ∈ b.forces, NoComma F.name := fun b hb F hF =>
    (h.forceNames b hb F.name (List.mem_append_left _ (List.mem_map_of_mem hF))).1
  have hc : ∀ b ∈ bodies, ∀ C ∈ b.controlled, NoComma C.name := fun b hb C hC =>
    (h.forceNames b hb C.name (List.mem_append_right _ (List.mem_map_of_mem hC))).1
  cases hq with
  | date => trivial
  | state b i hb => exact h.noComma b hb
  | inBody b F i hb hF => exact ⟨hf b hb F hF, h.noComma b hb, h.noComma b hb⟩
  | inNed b F i hb hF => exact ⟨hf b hb F hF, h.noComma b hb, ned⟩
  | controlledInBody b C i hb hC => exact ⟨hc b hb C hC, h.noComma b hb, h.noComma b hb⟩
  | controlledInOwn b C i hb hC => exact ⟨hc b hb C hC, h.noComma b hb, hc b hb C hC⟩
  | controlledInNed b C i hb hC => exact ⟨hc b hb C hC, h.noComma b hb, ned⟩
  | blocked b i hb => exact ⟨by unfold NoComma; decide, h.noComma b hb, h.noComma b hb⟩
  | sumInBody b i hb => exact ⟨by unfold NoComma; decide, h.noComma b hb, h.noComma b hb⟩
  | sumInNed b i hb => exact ⟨by unfold NoComma; decide, h.noComma b hb, ned⟩
  | observed b F q v hb hF hm =>
    rcases mem_extraObservations hm with ⟨B, gz, -, ⟨i, rfl, rfl⟩ | ⟨rfl, rfl⟩⟩ | ⟨gz, -, rfl, rfl⟩ | ⟨GM, GZ, -, ⟨rfl, rfl⟩ | ⟨rfl, rfl⟩⟩
    · trivial
    · exact ⟨hf b hb F hF, h.noComma b hb⟩
    · exact ⟨hf b hb F hF, h.noComma b hb⟩
    · exact ⟨by decide, h.noComma b hb, by decide⟩
    · exact ⟨by decide, h.noComma b hb, by decide⟩
  | distant b C n v hb hC hm =>
    have := h.extra b hb C hC (n, v) hm
    exact ⟨this.1, h.noComma b hb, this.2⟩

/-- the wrenches of a body: name of the force, frame, components -/
def wrenches (b : BodyData K) : List (String × String × Vec6 K) :=
  b.forces.flatMap (fun F => [(F.name, b.name, F.inBody), (F.name, "NED", F.inNed)]) ++
  b.controlled.flatMap (fun C => [(C.name, b.name, six C.tau), (C.name, C.name, six (feedInternal C.R C.P b.origin C.tau)),
    (C.name, "NED", six (feedNed b.N b.pN b.origin C.tau))]) ++
  [("blocked states", b.name, b.deltaF), ("sum of forces", b.name, b.sumInBody), ("sum of forces", "NED", b.sumInNed)]

theorem wrench_unique (h : Distinct bodies) {b : BodyData K} (hb : b ∈ bodies) {f r : String} {W W' : Vec6 K}
    (hW : (f, r, W) ∈ wrenches b) (hW' : (f, r, W') ∈ wrenches b) : W = W' := by
  have hn := h.notNed b hb
  have hnames := h.forces b hb
  obtain ⟨n1, n2, n3⟩ := List.nodup_append.mp hnames
  have hF : ∀ F ∈ b.forces, ∀ F' ∈ b.forces, F.name = F'.name → F = F' := fun F hF F' hF' e => mem_of_name n1 hF hF' e
  have hC : ∀ C ∈ b.controlled, ∀ C' ∈ b.controlled, C.name = C'.name → C = C' := fun C hC C' hC' e => mem_of_name n2 hC hC' e
  have hFC : ∀ F ∈ b.forces, ∀ C ∈ b.controlled, F.name ≠ C.name := fun F hF C hC =>
    n3 F.name (List.mem_map_of_mem hF) C.name (List.mem_map_of_mem hC)
  have rF : ∀ F ∈ b.forces, F.name ≠ "blocked states" ∧ F.name ≠ "sum of forces" := fun F hF =>
    (h.forceNames b hb F.name (List.mem_append_left _ (List.mem_map_of_mem hF))).2
  have rC : ∀ C ∈ b.controlled, C.name ≠ "blocked states" ∧ C.name ≠ "sum of forces" := fun C hC =>
    (h.forceNames b hb C.name (List.mem_append_right _ (List.mem_map_of_mem hC))).2
  have oC := h.controlled b hb
  have bs : ("blocked states" : String) ≠ "sum of forces" := by decide
  simp only [wrenches, List.mem_append, List.mem_flatMap, List.mem_cons, Prod.mk.injEq, List.not_mem_nil, or_false] at hW hW'
  rcases hW with (⟨F, mF, hW⟩ | ⟨C, mC, hW⟩) | hW
  · rcases hW' with (⟨F', mF', hW'⟩ | ⟨C', mC', hW'⟩) | hW'
    · have : F = F' := by
        rcases hW with hW | hW <;> rcases hW' with hW' | hW' <;> exact hF F mF F' mF' (hW.1.symm.trans hW'.1)
      subst this
      rcases hW with ⟨-, hr, rfl⟩ | ⟨-, hr, rfl⟩ <;> rcases hW' with ⟨-, hr', rfl⟩ | ⟨-, hr', rfl⟩ <;> first
        | rfl
        | exact absurd (hr.symm.trans hr') hn
        | exact absurd (hr'.symm.trans hr) hn
    · exfalso
      rcases hW with hW | hW <;> rcases hW' with hW' | hW' | hW' <;> exact hFC F mF C' mC' (hW.1.symm.trans hW'.1)
    · exfalso
      rcases hW with hW | hW <;> rcases hW' with hW' | hW' | hW' <;> first
        | exact (rF F mF).1 (hW.1.symm.trans hW'.1)
        | exact (rF F mF).2 (hW.1.symm.trans hW'.1)
  · rcases hW' with (⟨F', mF', hW'⟩ | ⟨C', mC', hW'⟩) | hW'
    · exfalso
      rcases hW with hW | hW | hW <;> rcases hW' with hW' | hW' <;> exact hFC F' mF' C mC (hW'.1.symm.trans hW.1)
    · have : C = C' := by
        rcases hW with hW | hW | hW <;> rcases hW' with hW' | hW' | hW' <;> exact hC C mC C' mC' (hW.1.symm.trans hW'.1)
      subst this
      obtain ⟨o1, o2⟩ := oC C mC
      rcases hW with ⟨-, hr, rfl⟩ | ⟨-, hr, rfl⟩ | ⟨-, hr, rfl⟩ <;> rcases hW' with ⟨-, hr', rfl⟩ | ⟨-, hr', rfl⟩ | ⟨-, hr', rfl⟩ <;> first
        | rfl
        | exact absurd (hr.symm.trans hr') hn
        | exact absurd (hr'.symm.trans hr) hn
        | exact absurd (hr.symm.trans hr') o1
        | exact absurd (hr'.symm.trans hr) o1
        | exact absurd (hr.symm.trans hr') o2
        | exact absurd (hr'.symm.trans hr) o2
    · exfalso
      rcases hW with hW | hW | hW <;> rcases hW' with hW' | hW' | hW' <;> first
        | exact (rC C mC).1 (hW.1.symm.trans hW'.1)
        | exact (rC C mC).2 (hW.1.symm.trans hW'.1)
  · rcases hW' with (⟨F', mF', hW'⟩ | ⟨C', mC', hW'⟩) | hW'
    · exfalso
      rcases hW with hW | hW | hW <;> rcases hW' with hW' | hW' <;> first
        | exact (rF F' mF').1 (hW'.1.symm.trans hW.1)
        | exact (rF F' mF').2 (hW'.1.symm.trans hW.1)
    · exfalso
      rcases hW with hW | hW | hW <;> rcases hW' with hW' | hW' | hW' <;> first
        | exact (rC C' mC').1 (hW'.1.symm.trans hW.1)
        | exact (rC C' mC').2 (hW'.1.symm.trans hW.1)
    · rcases hW with ⟨hf, hr, rfl⟩ | ⟨hf, hr, rfl⟩ | ⟨hf, hr, rfl⟩ <;> rcases hW' with ⟨hf', hr', rfl⟩ | ⟨hf', hr', rfl⟩ | ⟨hf', hr', rfl⟩ <;> first
        | rfl
        | exact absurd (hf.symm.trans hf') bs
        | exact absurd (hf'.symm.trans hf) bs
        | exact absurd (hr.symm.trans hr') hn
        | exact absurd (hr'.symm.trans hr) hn

/-- what is due, by kind of quantity -/
theorem due_inv {q : Quantity} {v : K} (hq : Due t bodies q v) :
    match q with
    | .date => v = t
    | .state i n => ∃ b ∈ bodies, b.name = n ∧ v = b.states i
    | .effort i f n r => ∃ b ∈ bodies, b.name = n ∧ ∃ W, (f, r, W) ∈ wrenches b ∧ v = W i
    | .buoyancy i f n => ∃ b ∈ bodies, b.name = n ∧ ∃ F ∈ b.forces, F.name = f ∧ ∃ B gz, F.kind = .exactHydrostatic B gz ∧ v = B i
    | .lever f n => ∃ b ∈ bodies, b.name = n ∧ ∃ F ∈ b.forces, F.name = f ∧
        ((∃ B, F.kind = .exactHydrostatic B v) ∨ F.kind = .fastHydrostatic v)
    | .extra m f n => ∃ b ∈ bodies, b.name = n ∧ ((∃ F ∈ b.forces, F.name = f ∧ ∃ GM GZ, F.kind = .gm GM GZ ∧
        (m = "GM" ∧ v = GM ∨ m = "GZ" ∧ v = GZ)) ∨ ∃ C ∈ b.controlled, C.name = f ∧ (m, v) ∈ C.extra) := by
  cases hq with
  | date => rfl
  | state b i hb => exact ⟨b, hb, rfl, rfl⟩
  | inBody b F i hb hF => exact ⟨b, hb, rfl, F.inBody, List.mem_append_left _ (List.mem_append_left _ (List.mem_flatMap.mpr ⟨F, hF, by simp⟩)), rfl⟩
  | inNed b F i hb hF => exact ⟨b, hb, rfl, F.inNed, List.mem_append_left _ (List.mem_append_left _ (List.mem_flatMap.mpr ⟨F, hF, by simp⟩)), rfl⟩
  | controlledInBody b C i hb hC =>
    exact ⟨b, hb, rfl, _, List.mem_append_left _ (List.mem_append_right _ (List.mem_flatMap.mpr ⟨C, hC, List.mem_cons_self ..⟩)), rfl⟩
  | controlledInOwn b C i hb hC =>
    exact ⟨b, hb, rfl, _, List.mem_append_left _ (List.mem_append_right _ (List.mem_flatMap.mpr ⟨C, hC, List.mem_cons_of_mem _ (List.mem_cons_self ..)⟩)), rfl⟩
  | controlledInNed b C i hb hC =>
    exact ⟨b, hb, rfl, _, List.mem_append_left _ (List.mem_append_right _ (List.mem_flatMap.mpr ⟨C, hC,
      List.mem_cons_of_mem _ (List.mem_cons_of_mem _ (List.mem_cons_self ..))⟩)), rfl⟩
  | blocked b i hb => exact ⟨b, hb, rfl, b.deltaF, List.mem_append_right _ (by simp), rfl⟩
  | sumInBody b i hb => exact ⟨b, hb, rfl, b.sumInBody, List.mem_append_right _ (by simp), rfl⟩
  | sumInNed b i hb => exact ⟨b, hb, rfl, b.sumInNed, List.mem_append_right _ (by simp), rfl⟩
  | observed b F q v hb hF hm =>
    rcases mem_extraObservations hm with ⟨B, gz, hk, ⟨i, rfl, rfl⟩ | ⟨rfl, rfl⟩⟩ | ⟨gz, hk, rfl, rfl⟩ | ⟨GM, GZ, hk, ⟨rfl, rfl⟩ | ⟨rfl, rfl⟩⟩
    · exact ⟨b, hb, rfl, F, hF, rfl, B, gz, hk, rfl⟩
    · exact ⟨b, hb, rfl, F, hF, rfl, .inl ⟨B, hk⟩⟩
    · exact ⟨b, hb, rfl, F, hF, rfl, .inr hk⟩
    · exact ⟨b, hb, rfl, .inl ⟨F, hF, rfl, _, GZ, hk, .inl ⟨rfl, rfl⟩⟩⟩
    · exact ⟨b, hb, rfl, .inl ⟨F, hF, rfl, GM, _, hk, .inr ⟨rfl, rfl⟩⟩⟩
  | distant b C n v hb hC hm => exact ⟨b, hb, rfl, .inr ⟨C, hC, rfl, hm⟩⟩

/-- two elements that give the same element of a list without duplicates -/
theorem flatMap_unique {α β : Type} {l : List α} {f : α → List β} (h : (l.flatMap f).Nodup) {a a' : α} {x : β} (ha : a ∈ l) (ha' : a' ∈ l)
    (hx : x ∈ f a) (hx' : x ∈ f a') : a = a' := by
  by_contra hne
  obtain ⟨-, h2⟩ := List.nodup_flatMap.mp h
  have : Std.Symm (Function.onFun List.Disjoint f) := ⟨fun x y hxy => List.Disjoint.symm hxy⟩
  exact h2.forall ha ha' hne hx hx'

/-- two numbers due under the same name are equal -/
theorem due_unique (h : Distinct bodies) {q q' : Quantity} {v v' : K} (hq : Due t bodies q v) (hq' : Due t bodies q' v') (e : Same q q') :
    v = v' := by
  have hb : ∀ b ∈ bodies, ∀ b' ∈ bodies, b.name = b'.name → b = b' := fun b hb b' hb' e => mem_of_name h.bodyNames hb hb' e
  have i1 := due_inv hq
  have i2 := due_inv hq'
  have forces : ∀ b ∈ bodies, ∀ F ∈ b.forces, ∀ F' ∈ b.forces, F.name = F'.name → F = F' := fun b hb F hF F' hF' e =>
    mem_of_name (List.nodup_append.mp (h.forces b hb)).1 hF hF' e
  cases q with
  | date =>
    cases q' <;> simp only [Same, reduceCtorEq] at e
    simp only at i1 i2
    rw [i1, i2]
  | state i n =>
    cases q' <;> simp only [Same, reduceCtorEq] at e
    rw [Quantity.state.injEq] at e
    obtain ⟨rfl, rfl⟩ := e
    obtain ⟨b, mb, nb, rfl⟩ := i1
    obtain ⟨b', mb', nb', rfl⟩ := i2
    rw [hb b mb b' mb' (nb.trans nb'.symm)]
  | effort i f n r =>
    cases q' <;> simp only [Same, reduceCtorEq] at e
    rw [Quantity.effort.injEq] at e
    obtain ⟨rfl, rfl, rfl, rfl⟩ := e
    obtain ⟨b, mb, nb, W, hW, rfl⟩ := i1
    obtain ⟨b', mb', nb', W', hW', rfl⟩ := i2
    obtain rfl := hb b mb b' mb' (nb.trans nb'.symm)
    rw [wrench_unique h mb hW hW']
  | buoyancy i f n =>
    cases q' <;> simp only [Same, reduceCtorEq] at e
    subst e
    obtain ⟨b, mb, nb, F, hF, -, B, gz, hk, rfl⟩ := i1
    obtain ⟨b', mb', nb', F', hF', -, B', gz', hk', rfl⟩ := i2
    have m1 : F ∈ (bodies.flatMap BodyData.forces).filter (fun F => isExact F.kind) :=
      List.mem_filter.mpr ⟨List.mem_flatMap.mpr ⟨b, mb, hF⟩, by rw [hk]; rfl⟩
    have m2 : F' ∈ (bodies.flatMap BodyData.forces).filter (fun F => isExact F.kind) :=
      List.mem_filter.mpr ⟨List.mem_flatMap.mpr ⟨b', mb', hF'⟩, by rw [hk']; rfl⟩
    have hl := h.oneExact
    have : F = F' := by
      generalize (bodies.flatMap BodyData.forces).filter (fun F => isExact F.kind) = l at m1 m2 hl
      match l, hl with
      | [], _ => cases m1
      | [a], _ => rw [List.mem_singleton.mp m1, List.mem_singleton.mp m2]
    subst this
    rw [hk] at hk'
    cases hk'; rfl
  | lever f n =>
    cases q' <;> simp only [Same, reduceCtorEq] at e
    rw [Quantity.lever.injEq] at e
    obtain ⟨rfl, rfl⟩ := e
    obtain ⟨b, mb, nb, F, hF, nF, hk⟩ := i1
    obtain ⟨b', mb', nb', F', hF', nF', hk'⟩ := i2
    obtain rfl := hb b mb b' mb' (nb.trans nb'.symm)
    obtain rfl := forces b mb F hF F' hF' (nF.trans nF'.symm)
    rcases hk with ⟨B, hk⟩ | hk <;> rcases hk' with ⟨B', hk'⟩ | hk' <;> rw [hk] at hk' <;> cases hk' <;> rfl
  | extra m f n =>
    cases q' <;> simp only [Same, reduceCtorEq] at e
    obtain ⟨rfl, rfl⟩ := e
    obtain ⟨b, mb, nb, i1⟩ := i1
    obtain ⟨b', mb', nb', i2⟩ := i2
    obtain rfl := hb b mb b' mb' (nb.trans nb'.symm)
    obtain ⟨n1, n2, n3⟩ := List.nodup_append.mp (h.extraNodup b mb)
    have mF : ∀ F ∈ b.forces, ∀ GM GZ, F.kind = .gm GM GZ → m = "GM" ∨ m = "GZ" → m ∈ extraNames F.kind := by
      intro F _ GM GZ hk hm
      rw [hk]
      rcases hm with rfl | rfl <;> simp [extraNames]
    have mFl : ∀ F ∈ b.forces, m ∈ extraNames F.kind → m ∈ b.forces.flatMap (fun F => extraNames F.kind) :=
      fun F hF hm => List.mem_flatMap.mpr ⟨F, hF, hm⟩
    have mCl : ∀ C ∈ b.controlled, ∀ w, (m, w) ∈ C.extra → m ∈ b.controlled.flatMap (fun C => C.extra.map Prod.fst) :=
      fun C hC w hm => List.mem_flatMap.mpr ⟨C, hC, List.mem_map_of_mem (f := Prod.fst) hm⟩
    rcases i1 with ⟨F, hF, -, GM, GZ, hk, hv⟩ | ⟨C, hC, -, hv⟩ <;> rcases i2 with ⟨F', hF', -, GM', GZ', hk', hv'⟩ | ⟨C', hC', -, hv'⟩
    · have a1 := mF F hF GM GZ hk (hv.imp And.left And.left)
      have a2 := mF F' hF' GM' GZ' hk' (hv'.imp And.left And.left)
      obtain rfl := flatMap_unique n1 hF hF' a1 a2
      rw [hk] at hk'
      cases hk'
      have ne : ("GM" : String) ≠ "GZ" := by decide
      rcases hv with ⟨h1, rfl⟩ | ⟨h1, rfl⟩ <;> rcases hv' with ⟨h2, rfl⟩ | ⟨h2, rfl⟩ <;> first
        | rfl
        | exact absurd (h1.symm.trans h2) ne
        | exact absurd (h2.symm.trans h1) ne
    · exact absurd rfl (n3 m (mFl F hF (mF F hF GM GZ hk (hv.imp And.left And.left))) m (mCl C' hC' v' hv'))
    · exact absurd rfl (n3 m (mFl F' hF' (mF F' hF' GM' GZ' hk' (hv'.imp And.left And.left))) m (mCl C hC v hv))
    · obtain rfl := flatMap_unique (x := m) n2 hC hC' (List.mem_map.mpr ⟨(m, v), hv, rfl⟩) (List.mem_map.mpr ⟨(m, v'), hv', rfl⟩)
      have := (List.nodup_flatMap.mp n2).1 C hC
      have := List.inj_on_of_nodup_map this hv hv' rfl
      exact (Prod.mk.inj this).2

end

theorem lookup_of_mem {β : Type} {l : List (String × β)} {a : String} {b : β} (hm : (a, b) ∈ l) (hu : ∀ b', (a, b') ∈ l → b' = b) :
    l.lookup a = some b := by
  induction l with
  | nil => cases hm
  | cons p l ih =>
    obtain ⟨x, y⟩ := p
    simp only [List.lookup]
    by_cases hx : a = x
    · subst hx
      simp only [beq_self_eq_true]
      rw [hu y (by simp)]
    · have : (a == x) = false := by simpa using hx
      rw [this]
      refine ih ?_ (fun b' h => hu b' (List.mem_cons_of_mem _ h))
      rcases List.mem_cons.mp hm with h | h
      · exact absurd (Prod.mk.inj h).1 hx
      · exact h

/-- **C160** (partial: the names must be distinguishable) Under the name of each state, of each component of the wrench of each
force model in each frame, of the blocking forces and of the sum of forces, and of each extra observation, the observers find the
number that was due for it, not that of another force model or of another body. -/
theorem outputs_partial (t : K) (bodies : List (BodyData K)) (h : Distinct bodies) (q : Quantity) (v : K) (hq : Due t bodies q v) :
    kept (outputs t bodies) (label q) = some v := by
  refine lookup_of_mem ?_ ?_
  · rw [List.mem_reverse]
    exact List.mem_map.mpr ⟨(q, v), (mem_outputs t bodies q v).mpr hq, rfl⟩
  · intro v' hm
    rw [List.mem_reverse] at hm
    obtain ⟨⟨q', w⟩, hm', e⟩ := List.mem_map.mp hm
    simp only [Prod.mk.injEq] at e
    obtain ⟨e, rfl⟩ := e
    have hq' := (mem_outputs t bodies q' w).mp hm'
    exact due_unique h hq' hq (same_name q' q (due_clean h hq') (due_clean h hq) e)

/-! ### Names that cannot be told apart -/

/-- a body with an exact hydrostatic force model, whose centre of buoyancy is at `x` -/
def floating (name : String) (x : ℚ) : BodyData ℚ where
  name := name
  forces := [⟨"hydrostatic", fun _ => 0, fun _ => 0, .exactHydrostatic (fun _ => x) 0⟩]
  controlled := []
  N := 1
  pN := fun _ => 0
  origin := fun _ => 0
  states := fun _ => 0
  deltaF := fun _ => 0
  sumInBody := fun _ => 0
  sumInNed := fun _ => 0

/-- **C160** is false in the code: in a simulation of two bodies, the centre of buoyancy written for the first body is that of the
second one. -/
theorem buoyancy_overwritten : Due 0 [floating "a" 1, floating "b" 2] (.buoyancy 0 "hydrostatic" "a") (1 : ℚ) ∧
    kept (outputs 0 [floating "a" 1, floating "b" 2]) (label (.buoyancy 0 "hydrostatic" "a")) = some 2 := by
  refine ⟨.observed (floating "a" 1) _ _ _ (by simp) (List.mem_cons_self ..) ?_, by decide +kernel⟩
  simp [extraObservations, floating]

/-- a body with one controlled force model -/
def controlledBy (name model : String) (force : Vec3 ℚ) (R : Mat3 ℚ) (extra : List (String × ℚ)) : BodyData ℚ where
  name := name
  forces := []
  controlled := [⟨model, (force, 0), R, 0, extra⟩]
  N := 1
  pN := fun _ => 0
  origin := fun _ => 0
  states := fun _ => 5
  deltaF := fun _ => 0
  sumInBody := fun _ => 0
  sumInNed := fun _ => 0

/-- The force of a controlled model that has the name of its body is written twice under the same name: what is kept for the body
frame is the force in the frame of the model. -/
theorem frame_overwritten : Due 0 [controlledBy "ship" "ship" ![1, 0, 0] !![0, -1, 0; 1, 0, 0; 0, 0, 1] []] (.effort 0 "ship" "ship" "ship") (1 : ℚ) ∧
    kept (outputs 0 [controlledBy "ship" "ship" ![1, 0, 0] !![0, -1, 0; 1, 0, 0; 0, 0, 1] []]) (label (.effort 0 "ship" "ship" "ship")) = some 0 :=
  ⟨.controlledInBody (controlledBy "ship" "ship" ![1, 0, 0] !![0, -1, 0; 1, 0, 0; 0, 0, 1] []) _ 0 (by simp) (List.mem_cons_self ..), by decide +kernel⟩

/-- An extra observation of a distant force model that has the name of a state is lost. -/
theorem extra_overwritten : Due 0 [controlledBy "ship" "far" 0 1 [("x", 3)]] (.extra "x" "far" "ship") (3 : ℚ) ∧
    kept (outputs 0 [controlledBy "ship" "far" 0 1 [("x", 3)]]) (label (.extra "x" "far" "ship")) = some 5 :=
  ⟨.distant (controlledBy "ship" "far" 0 1 [("x", 3)]) _ "x" 3 (by simp) (List.mem_cons_self ..) (by simp), by decide +kernel⟩

/-- The conditions are met by an ordinary simulation. -/
example : Distinct [floating "a" 1, controlledBy "ship" "far" 0 1 [("power", 3)]] := by
  refine ⟨by decide, ?_, ?_, ?_, ?_, ?_, ?_, ?_, by decide⟩ <;>
    simp only [List.forall_mem_cons, List.not_mem_nil, false_implies, implies_true, and_true]
  · exact ⟨by unfold NoComma; decide, by unfold NoComma; decide⟩
  · exact ⟨by decide, by decide⟩
  · exact ⟨by decide, by decide⟩
  · unfold NoComma; exact ⟨by decide, by decide⟩
  · exact ⟨fun C hC => absurd hC (by simp [floating]), fun C hC => by
      obtain rfl := List.mem_singleton.mp hC
      exact ⟨by decide, by decide⟩⟩
  · exact ⟨by decide, by decide⟩
  · exact ⟨fun C hC => absurd hC (by simp [floating]), fun C hC e he => by
      obtain rfl := List.mem_singleton.mp hC
      obtain rfl := List.mem_singleton.mp he
      exact ⟨by decide, by decide⟩⟩

/-! ### Wrenches of controlled forces in the NED frame -/

theorem crossA (a b : Vec3 K) : cross a b 0 = a 1 * b 2 - a 2 * b 1 := rfl
theorem crossB (a b : Vec3 K) : cross a b 1 = a 2 * b 0 - a 0 * b 2 := rfl
theorem crossC (a b : Vec3 K) : cross a b 2 = a 0 * b 1 - a 1 * b 0 := rfl

/-- **C161** (what the code does when `feed` is given the point where the wrench is expressed) The wrench written in the NED frame
is the wrench, at the origin of that frame, that is equivalent to the one at `G` in the body frame: on every rigid motion (velocity
`vO` of the point of the solid at the origin of the NED frame, angular velocity `om`, both in the NED frame) it has the same power.
`N` is the rotation from the NED frame to the body frame and `pN` the origin of the NED frame in the body frame, so that the
velocity of `G` in the body frame is `N vO + (N om) × (G - pN)`. -/
theorem ned_wrench_power_partial (N : Mat3 K) (pN G : Vec3 K) (tau : Vec3 K × Vec3 K) (vO om : Vec3 K) :
    dot (feedNed N pN G tau).1 vO + dot (feedNed N pN G tau).2 om =
      dot tau.1 (N.mulVec vO + cross (N.mulVec om) (G - pN)) + dot tau.2 (N.mulVec om) := by
  simp only [feedNed, dot, crossA, crossB, crossC, Matrix.mulVec, dotProduct, Fin.sum_univ_three,
    Matrix.transpose_apply, Pi.add_apply, Pi.sub_apply, Pi.neg_apply]
  ring

/-- **C161** (what the code does) `Sim::output` gives to `feed` the position `o` of the body in the NED frame instead of `G`: the
torque is wrong by the moment of the force about a point shifted by `o - G`. -/
theorem ned_wrench_error (N : Mat3 K) (pN G o : Vec3 K) (tau : Vec3 K × Vec3 K) :
    feedNed N pN o tau = ((feedNed N pN G tau).1, (feedNed N pN G tau).2 + N.transpose.mulVec (cross (o - G) tau.1)) := by
  simp only [feedNed, Prod.mk.injEq, true_and, ← Matrix.mulVec_add]
  congr 1
  funext i
  match i with
  | 0 => simp only [Pi.add_apply, Pi.sub_apply, Pi.neg_apply, crossA]; ring
  | 1 => simp only [Pi.add_apply, Pi.sub_apply, Pi.neg_apply, crossB]; ring
  | 2 => simp only [Pi.add_apply, Pi.sub_apply, Pi.neg_apply, crossC]; ring

/-- **C161** is false in the code: a unit force along y at the origin of a body 10 m from the origin of the NED frame, along x, has
a moment of 10 about that origin; 20 is written. -/
theorem ned_wrench_refuted :
    (feedNed (1 : Mat3 ℚ) ![-10, 0, 0] ![0, 0, 0] (![0, 1, 0], ![0, 0, 0])).2 = ![0, 0, 10] ∧
    (feedNed (1 : Mat3 ℚ) ![-10, 0, 0] ![10, 0, 0] (![0, 1, 0], ![0, 0, 0])).2 = ![0, 0, 20] := by
  constructor <;> funext i <;> fin_cases i <;> simp [feedNed, cross] <;> norm_num

end Xdyn.Outputs

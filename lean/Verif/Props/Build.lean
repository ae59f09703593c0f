/-
Proofs about the construction of a simulation (C162, C163).
-/
import Verif.Spec.Build
import Verif.Props.ConfigBuild

namespace Xdyn.Build
open Xdyn.Config Xdyn.Build.Spec

variable {Y D K P C W M B X : Type}

/-! ### Sections -/

theorem tryToParse_self (p : Maker Y K P W) (body : Text) (m : Model Y) (w : W) (h : m.model = p.name) (r : Option (Made K P) × W) :
    p.tryToParse body m w = .ok r ↔ ∃ f, r.1 = some f ∧ f.body = body ∧ p.make body m.yaml w = .ok ((f.tmax, f.surface, f.rest), r.2) := by
  unfold Maker.tryToParse
  rw [if_pos h]
  cases hm : p.make body m.yaml w with
  | error e => simp
  | ok x =>
    obtain ⟨⟨T, s, q⟩, w'⟩ := x
    obtain ⟨r1, r2⟩ := r
    simp only [Except.ok.injEq, Prod.mk.injEq]
    constructor
    · rintro ⟨rfl, rfl⟩
      exact ⟨_, rfl, rfl, ⟨rfl, rfl, rfl⟩, rfl⟩
    · rintro ⟨f, rfl, hb, ⟨rfl, rfl, rfl⟩, rfl⟩
      exact ⟨by rw [← hb], rfl⟩

theorem tryToParse_other (p : Maker Y K P W) (body : Text) (m : Model Y) (w : W) (h : m.model ≠ p.name) :
    p.tryToParse body m w = .ok (none, w) := if_neg h

theorem tryAll_other (makers : List (Maker Y K P W)) (body : Text) (m : Model Y) (st : List (Made K P) × Bool) (w : W)
    (h : m.model ∉ makers.map (·.name)) : tryAll body m makers st w = .ok (st, w) := by
  induction makers with
  | nil => rfl
  | cons p l ih =>
    simp only [List.map_cons, List.mem_cons, not_or] at h
    simp only [tryAll, tryToParse_other p body m w h.1]
    exact ih h.2

theorem add_iff (makers : List (Maker Y K P W)) (hn : (makers.map (·.name)).Nodup) (body : Text) (L L' : List (Made K P)) (m : Model Y)
    (w w' : W) : add makers body L m w = .ok (L', w') ↔ ∃ f, Asked makers body m w f w' ∧ L' = L ++ [f] := by
  have key : ∀ (makers : List (Maker Y K P W)), (makers.map (·.name)).Nodup → ∀ L', tryAll body m makers (L, false) w = .ok ((L', true), w') ↔
      ∃ f, Asked makers body m w f w' ∧ L' = L ++ [f] := by
    intro makers hn L'
    induction makers with
    | nil => simp [tryAll, Asked]
    | cons p l ih =>
      rw [List.map_cons, List.nodup_cons] at hn
      unfold tryAll
      by_cases h : m.model = p.name
      · cases ht : p.tryToParse body m w with
        | error e =>
          simp only [reduceCtorEq, false_iff, not_exists, not_and]
          rintro f ⟨q, hq, hqn, hb, hmk⟩ -
          rcases List.mem_cons.mp hq with rfl | hq
          · have := (tryToParse_self q body m w h (some f, w')).mpr ⟨f, rfl, hb, hmk⟩
            rw [ht] at this; cases this
          · exact hn.1 (List.mem_map.mpr ⟨q, hq, by rw [hqn, h]⟩)
        | ok r =>
          obtain ⟨f, hf, hb, hmk⟩ := (tryToParse_self p body m w h r).mp ht
          obtain ⟨r1, r2⟩ := r
          simp only at hf hmk
          subst hf
          simp only
          rw [tryAll_other l body m _ r2 (by rw [h]; exact hn.1)]
          simp only [Except.ok.injEq, Prod.mk.injEq, and_true]
          constructor
          · rintro ⟨rfl, rfl⟩
            exact ⟨f, ⟨p, by simp, h.symm, hb, hmk⟩, rfl⟩
          · rintro ⟨g, ⟨q, hq, hqn, hb', hmk'⟩, rfl⟩
            rcases List.mem_cons.mp hq with rfl | hq
            · rw [hmk] at hmk'
              simp only [Except.ok.injEq, Prod.mk.injEq] at hmk'
              obtain ⟨⟨h1, h2, h3⟩, h4⟩ := hmk'
              refine ⟨?_, h4⟩
              obtain ⟨a, b, c, d⟩ := f
              obtain ⟨a', b', c', d'⟩ := g
              simp only at h1 h2 h3 hb hb'
              subst h1 h2 h3 hb hb'
              rfl
            · exact absurd (List.mem_map.mpr ⟨q, hq, by rw [hqn, h]⟩) hn.1
      · rw [tryToParse_other p body m w h]
        simp only
        rw [ih hn.2]
        constructor
        · rintro ⟨f, ⟨q, hq, h'⟩, hL⟩
          exact ⟨f, ⟨q, List.mem_cons_of_mem _ hq, h'⟩, hL⟩
        · rintro ⟨f, ⟨q, hq, hqn, h'⟩, hL⟩
          rcases List.mem_cons.mp hq with rfl | hq
          · exact absurd hqn.symm h
          · exact ⟨f, ⟨q, hq, hqn, h'⟩, hL⟩
  rw [← key makers hn]
  unfold add
  cases h : tryAll body m makers (L, false) w with
  | error e => simp
  | ok r =>
    obtain ⟨⟨a, b⟩, c⟩ := r
    cases b <;> simp

theorem forcesFrom_iff (makers : List (Maker Y K P W)) (hn : (makers.map (·.name)).Nodup) (body : Text) (ms : List (Model Y))
    (L L' : List (Made K P)) (w w' : W) :
    forcesFrom makers body ms L w = .ok (L', w') ↔ ∃ fs, Section makers body ms w fs w' ∧ L' = L ++ fs := by
  induction ms generalizing L w with
  | nil =>
    simp only [forcesFrom, Except.ok.injEq, Prod.mk.injEq]
    constructor
    · rintro ⟨rfl, rfl⟩; exact ⟨[], .nil _, by simp⟩
    · rintro ⟨fs, h, rfl⟩; cases h; simp
  | cons m ms ih =>
    unfold forcesFrom
    cases h : add makers body L m w with
    | error e =>
      simp only [reduceCtorEq, false_iff, not_exists, not_and]
      rintro fs hs -
      cases hs with
      | cons m ms f fs w w1 w2 h1 h2 =>
        have := (add_iff makers hn body L _ m w w1).mpr ⟨f, h1, rfl⟩
        rw [h] at this; cases this
    | ok r =>
      obtain ⟨L1, w1⟩ := r
      simp only
      rw [ih]
      obtain ⟨f, hf, rfl⟩ := (add_iff makers hn body L L1 m w w1).mp h
      constructor
      · rintro ⟨fs, hs, rfl⟩
        exact ⟨f :: fs, .cons m ms f fs w w1 w' hf hs, by simp⟩
      · rintro ⟨fs, hs, rfl⟩
        cases hs with
        | cons m ms f' fs w w1' w2 h1 h2 =>
          have := (add_iff makers hn body L _ m w w1').mpr ⟨f', h1, rfl⟩
          rw [h] at this
          simp only [Except.ok.injEq, Prod.mk.injEq, List.append_cancel_left_eq, List.cons.injEq, and_true] at this
          obtain ⟨rfl, rfl⟩ := this
          exact ⟨fs, h2, by simp⟩

theorem getForces_iff (makers : List (Maker Y K P W)) (hn : (makers.map (·.name)).Nodup) (models : YBody Y D → List (Model Y))
    (bodies : List (YBody Y D)) (fs : List (List (Made K P))) (w w' : W) :
    getForces makers models bodies w = .ok (fs, w') ↔ Sections makers models bodies w fs w' := by
  induction bodies generalizing fs w with
  | nil =>
    simp only [getForces, Except.ok.injEq, Prod.mk.injEq]
    constructor
    · rintro ⟨rfl, rfl⟩; exact .nil _
    · intro h; cases h; simp
  | cons b bs ih =>
    unfold getForces
    constructor
    · intro h
      split at h
      · cases h
      · rename_i f w1 h1
        split at h
        · cases h
        · rename_i fs' w2 h2
          simp only [Except.ok.injEq, Prod.mk.injEq] at h
          obtain ⟨rfl, rfl⟩ := h
          obtain ⟨f', hf, e⟩ := (forcesFrom_iff makers hn b.name _ [] f w w1).mp h1
          rw [List.nil_append] at e
          subst e
          exact .cons b bs f fs' w w1 w2 hf ((ih fs' w1).mp h2)
    · intro h
      cases h with
      | cons b bs f fs w w1 w2 h1 h2 =>
        rw [(forcesFrom_iff makers hn b.name _ [] f w w1).mpr ⟨f, h1, by simp⟩]
        simp only
        rw [(ih fs w1).mpr h2]

theorem sections_length {makers : List (Maker Y K P W)} {models : YBody Y D → List (Model Y)} {bodies : List (YBody Y D)}
    {fs : List (List (Made K P))} {w w' : W} (h : Sections makers models bodies w fs w') : fs.length = bodies.length := by
  induction h with
  | nil => rfl
  | cons b bs f fs w w1 w2 _ _ ih => simp [ih]

theorem section_body {makers : List (Maker Y K P W)} {body : Text} {ms : List (Model Y)} {fs : List (Made K P)} {w w' : W}
    (h : Section makers body ms w fs w') : ∀ f ∈ fs, f.body = body := by
  induction h with
  | nil => simp
  | cons m ms f fs w w1 w2 h1 _ ih =>
    intro g hg
    rcases List.mem_cons.mp hg with rfl | hg
    · obtain ⟨_, _, _, hb, _⟩ := h1; exact hb
    · exact ih g hg

theorem sections_body {makers : List (Maker Y K P W)} {models : YBody Y D → List (Model Y)} {bodies : List (YBody Y D)}
    {fs : List (List (Made K P))} {w w' : W} (h : Sections makers models bodies w fs w') :
    List.Forall₂ (fun n l => ∀ f ∈ l, (f : Made K P).body = n) (bodies.map (·.name)) fs := by
  induction h with
  | nil => exact .nil
  | cons b bs f fs w w1 w2 h1 _ ih => exact .cons (section_body h1) ih

/-! ### Maps -/

theorem meshMap_other (readStl : Text → Except Err M) (noMesh : M) (bodies : List (YBody Y D)) (m m' : NameMap M)
    (h : makeMeshMap readStl noMesh bodies m = .ok m') (n : Text) (hn : n ∉ bodies.map (·.name)) : m' n = m n := by
  induction bodies generalizing m with
  | nil => cases h; rfl
  | cons b l ih =>
    simp only [List.map_cons, List.mem_cons, not_or] at hn
    unfold makeMeshMap at h
    split at h
    · cases h
    · rename_i x _
      rw [ih _ h hn.2]
      exact if_neg hn.1

theorem meshMap_own (readStl : Text → Except Err M) (noMesh : M) (bodies : List (YBody Y D)) (hd : (bodies.map (·.name)).Nodup)
    (m m' : NameMap M) (h : makeMeshMap readStl noMesh bodies m = .ok m') (b : YBody Y D) (hb : b ∈ bodies) :
    ∃ x, m' b.name = some x ∧ MeshOf readStl noMesh b x := by
  induction bodies generalizing m with
  | nil => simp at hb
  | cons c l ih =>
    rw [List.map_cons, List.nodup_cons] at hd
    unfold makeMeshMap at h
    split at h
    · cases h
    · rename_i x hx
      rcases List.mem_cons.mp hb with rfl | hb
      · refine ⟨x, ?_, ?_⟩
        · rw [meshMap_other readStl noMesh l _ m' h b.name hd.1]
          exact if_pos rfl
        · unfold getMesh at hx
          by_cases he : b.mesh = []
          · rw [if_pos he] at hx; cases hx; exact .inl ⟨he, rfl⟩
          · rw [if_neg he] at hx; exact .inr ⟨he, hx⟩
      · exact ih hd.2 _ h hb

theorem simMap_other {F : Type} (forces : List F) (i : Nat) (l : List (Text × B)) (m m' : NameMap F) (h : simMap forces i l m = .ok m')
    (n : Text) (hn : n ∉ l.map Prod.fst) : m' n = m n := by
  induction l generalizing i m with
  | nil => cases h; rfl
  | cons b l ih =>
    simp only [List.map_cons, List.mem_cons, not_or] at hn
    unfold simMap at h
    split at h
    · cases h
    · rw [ih _ _ h hn.2]
      exact if_neg hn.1

theorem simMap_own {F : Type} (forces : List F) (i : Nat) (l : List (Text × B)) (hd : (l.map Prod.fst).Nodup) (m m' : NameMap F)
    (h : simMap forces i l m = .ok m') (j : Nat) (b : Text × B) (hb : l[j]? = some b) :
    ∃ f, forces[i + j]? = some f ∧ m' b.1 = some f := by
  induction l generalizing i m j with
  | nil => simp at hb
  | cons c l ih =>
    rw [List.map_cons, List.nodup_cons] at hd
    unfold simMap at h
    split at h
    · cases h
    · rename_i f hf
      cases j with
      | zero =>
        simp only [List.getElem?_cons_zero, Option.some.injEq] at hb
        subst hb
        refine ⟨f, ?_, ?_⟩
        · unfold getAt at hf
          cases hx : forces[i]? with
          | none => rw [hx] at hf; cases hf
          | some y => rw [hx] at hf; cases hf; simp [hx]
        · rw [simMap_other forces (i + 1) l _ m' h c.1 hd.1]
          exact if_pos rfl
      | succ j =>
        simp only [List.getElem?_cons_succ] at hb
        obtain ⟨f', h1, h2⟩ := ih (i + 1) hd.2 _ h j hb
        exact ⟨f', by rw [← h1]; congr 1; omega, h2⟩

theorem simMap_ok {F : Type} (forces : List F) (i : Nat) (l : List (Text × B)) (h : i + l.length ≤ forces.length) (m : NameMap F) :
    ∃ m', simMap forces i l m = .ok m' := by
  induction l generalizing i m with
  | nil => exact ⟨m, rfl⟩
  | cons b l ih =>
    simp only [List.length_cons] at h
    unfold simMap
    have hi : i < forces.length := by omega
    simp only [getAt, List.getElem?_eq_getElem hi]
    exact ih (i + 1) (by omega) _

/-! ### Bodies -/

section
variable [Field K] [LinearOrder K]

omit [Field K] [LinearOrder K] in
theorem bodies_built (mk : YBody Y D → M → Nat → K → Bool → Except Err B) (meshes : NameMap M) (flags : List Bool) (len : LengthMap K)
    (i : Nat) (l : List (YBody Y D)) (xs : List (Text × B)) (h : getBodies mk meshes flags len i l = .ok xs) :
    xs.map Prod.fst = l.map (·.name) ∧ ∀ j b, l[j]? = some b → ∃ m flag x, xs[j]? = some (b.name, x) ∧ meshes b.name = some m ∧
      flags[i + j]? = some flag ∧ mk b m (i + j) (len b.name) flag = .ok x := by
  induction l generalizing i xs with
  | nil => cases h; exact ⟨rfl, fun j b hb => by simp at hb⟩
  | cons b l ih =>
    unfold getBodies at h
    split at h
    · cases h
    · rename_i m hm
      split at h
      · cases h
      · rename_i flag hflag
        split at h
        · cases h
        · rename_i x hx
          split at h
          · cases h
          · rename_i xs' hxs
            cases h
            obtain ⟨h1, h2⟩ := ih (i + 1) xs' hxs
            refine ⟨by simp [h1], fun j c hc => ?_⟩
            cases j with
            | zero =>
              simp only [List.getElem?_cons_zero, Option.some.injEq] at hc
              subst hc
              refine ⟨m, flag, x, rfl, hm, ?_, hx⟩
              unfold getAt at hflag
              cases hf : flags[i]? with
              | none => rw [hf] at hflag; cases hflag
              | some y => rw [hf] at hflag; cases hflag; simp [hf]
            | succ j =>
              simp only [List.getElem?_cons_succ] at hc
              obtain ⟨m', flag', x', g1, g2, g3, g4⟩ := h2 j c hc
              refine ⟨m', flag', x', by simpa using g1, g2, ?_, ?_⟩
              · rw [← g3]; congr 1; omega
              · rw [← g4]; congr 1; omega

theorem any_flag (l : List (Made K P)) : l.foldl (fun b f => b || f.surface) false = l.any (·.surface) := by
  have : ∀ (l : List (Made K P)) (a : Bool), l.foldl (fun b f => b || f.surface) a = (a || l.any (·.surface)) := by
    intro l
    induction l with
    | nil => simp
    | cons f l ih => intro a; simp [ih, Bool.or_assoc]
  simpa using this l false

variable [IsStrictOrderedRing K]

/-- **C162** (construction) A simulation of bodies with different names, when it is built, is the one of the input: each body has
its own index, is built from its own data and mesh, is treated as a body with surface forces iff one of its own force models is
one, and the force models (controlled or not) that act on it are those of its own sections, in order, built for it with their own
parameters. The controlled force models are constructed twice; the second ones are used.

The hypothesis on the names of the parsers is met by those of the simulator (`registeredModels_nodup`). -/
theorem built_partial (S : Builder Y D K P C W M B X) (hm : (S.makers.map (·.name)).Nodup) (hc : (S.controlledMakers.map (·.name)).Nodup)
    (bodies : List (YBody Y D)) (hn : (bodies.map (·.name)).Nodup) (w w' : W) (sim : Sim K P C B X)
    (h : build S bodies w = .ok (sim, w')) :
    ∃ forces w1 first w2 controlled,
      Sections S.makers YBody.external bodies w forces w1 ∧
      Sections S.controlledMakers YBody.controlled bodies w1 first w2 ∧
      Sections S.controlledMakers YBody.controlled bodies w2 controlled w' ∧
      S.init bodies = .ok sim.state ∧
      sim.bodies.map Prod.fst = bodies.map (·.name) ∧
      ∀ i b, bodies[i]? = some b → ∃ mesh T x fs cs₁ cs,
        forces[i]? = some fs ∧ first[i]? = some cs₁ ∧ controlled[i]? = some cs ∧
        MeshOf S.readStl S.noMesh b mesh ∧ sim.bodies[i]? = some (b.name, x) ∧ S.body b mesh i T (fs.any (·.surface)) = .ok x ∧
        sim.forces b.name = some fs ∧ sim.controlled b.name = some cs ∧ LongEnough T fs ∧ LongEnough T cs₁ := by
  unfold build at h
  split at h
  · cases h
  rename_i meshes hmeshes
  split at h
  · cases h
  rename_i forces w1 hforces
  split at h
  · cases h
  rename_i first w2 hfirst
  split at h
  · cases h
  rename_i built hbuilt
  split at h
  · cases h
  rename_i x hx
  split at h
  · cases h
  rename_i controlled w3 hcontrolled
  split at h
  · rename_i f c hf hcm
    cases h
    have s1 := (getForces_iff S.makers hm _ bodies forces w w1).mp hforces
    have s2 := (getForces_iff S.controlledMakers hc _ bodies first w1 w2).mp hfirst
    have s3 := (getForces_iff S.controlledMakers hc _ bodies controlled w2 w').mp hcontrolled
    obtain ⟨b1, b2⟩ := bodies_built S.body meshes _ _ 0 bodies built hbuilt
    have hnb : (built.map Prod.fst).Nodup := by rw [b1]; exact hn
    refine ⟨forces, w1, first, w2, controlled, s1, s2, s3, hx, b1, fun i b hb => ?_⟩
    obtain ⟨m, flag, y, g1, g2, g3, g4⟩ := b2 i b hb
    obtain ⟨m', hm', hmo⟩ := meshMap_own S.readStl S.noMesh bodies hn _ meshes hmeshes b (List.mem_of_getElem? hb)
    rw [g2] at hm'
    cases hm'
    obtain ⟨fs, e1, e2⟩ := simMap_own forces 0 built hnb _ f hf i _ g1
    obtain ⟨cs, e3, e4⟩ := simMap_own controlled 0 built hnb _ c hcm i _ g1
    rw [Nat.zero_add] at e1 e3 g3
    have hlen := sections_length s2
    have hi : i < bodies.length := (List.getElem?_eq_some_iff.mp hb).1
    have hl1 : first[i]? = some first[i] := List.getElem?_eq_getElem (by omega)
    have hflag : flag = fs.any (·.surface) := by
      simp only [surfaceFlags, List.getElem?_map, e1, Option.map_some, Option.some.injEq] at g3
      rw [← g3, any_flag]
    subst hflag
    rw [Nat.zero_add] at g4
    have hh := history_long_enough (bodies.map (·.name)) hn (lengths forces) (lengths first)
      (by
        unfold lengths
        rw [List.forall₂_map_right_iff]
        refine (sections_body s1).imp ?_
        intro n l hl f hf
        obtain ⟨f', hf', rfl⟩ := List.mem_map.mp hf
        exact hl f' hf')
      (by
        intro l hl a ha b' hb'
        obtain ⟨l0, hl0, rfl⟩ := List.mem_map.mp hl
        obtain ⟨a0, ha0, rfl⟩ := List.mem_map.mp ha
        obtain ⟨b0, hb0, rfl⟩ := List.mem_map.mp hb'
        have : ∃ n, ∀ f ∈ l0, f.body = n := by
          have hs := sections_body s2
          clear * - hs hl0
          generalize bodies.map (fun x => x.name) = ns at hs
          induction hs with
          | nil => simp at hl0
          | cons h _ ih =>
            rcases List.mem_cons.mp hl0 with rfl | hl0
            · exact ⟨_, h⟩
            · exact ih hl0
        obtain ⟨n, hn⟩ := this
        show a0.body = b0.body
        rw [hn a0 ha0, hn b0 hb0])
    have hown : ∀ {Q : Type} {fss : List (List (Made K Q))}, List.Forall₂ (fun n l => ∀ f ∈ l, (f : Made K Q).body = n) (bodies.map (·.name)) fss →
        ∀ l, fss[i]? = some l → ∀ f ∈ l, f.body = b.name := by
      intro Q fss hs l hl
      have h1 : (bodies.map (·.name))[i]? = some b.name := by simp [hb]
      have := hs.get
      obtain ⟨hi', rfl⟩ := List.getElem?_eq_some_iff.mp hl
      obtain ⟨hi'', h1⟩ := List.getElem?_eq_some_iff.mp h1
      have := this hi'' hi'
      simp only [List.get_eq_getElem] at this
      rw [h1] at this
      exact this
    refine ⟨m, _, y, fs, first[i], cs, e1, hl1, e3, hmo, g1, g4, e2, e4, ?_, ?_⟩
    · intro a ha
      have := hh.1 (fs.map Made.length) (List.mem_map.mpr ⟨fs, List.mem_of_getElem? e1, rfl⟩) a.length (List.mem_map.mpr ⟨a, ha, rfl⟩)
      rw [show (a.length).body = b.name from hown (sections_body s1) fs e1 a ha] at this
      exact this
    · intro a ha
      have := hh.2 (first[i].map Made.length) (List.mem_map.mpr ⟨first[i], List.getElem_mem _, rfl⟩) a.length (List.mem_map.mpr ⟨a, ha, rfl⟩)
      rw [show (a.length).body = b.name from hown (sections_body s2) first[i] hl1 a ha] at this
      exact this
  · cases h
  · cases h

omit [IsStrictOrderedRing K] in
/-- **C162** (success) The simulation is built whenever every part of the input is: the files of meshes are read, every element of
the sections is constructed in the order of the file (and the controlled ones once more), the bodies and the initial states too. -/
theorem build_succeeds (S : Builder Y D K P C W M B X) (hm : (S.makers.map (·.name)).Nodup) (hc : (S.controlledMakers.map (·.name)).Nodup)
    (bodies : List (YBody Y D)) (w w1 w2 w' : W) (forces : List (List (Made K P))) (first controlled : List (List (Made K C)))
    (h1 : Sections S.makers YBody.external bodies w forces w1) (h2 : Sections S.controlledMakers YBody.controlled bodies w1 first w2)
    (h3 : Sections S.controlledMakers YBody.controlled bodies w2 controlled w')
    (hmesh : ∀ b ∈ bodies, ∃ m, MeshOf S.readStl S.noMesh b m)
    (hbody : ∀ b ∈ bodies, ∀ m i T flag, ∃ x, S.body b m i T flag = .ok x) (hinit : ∃ x, S.init bodies = .ok x) :
    ∃ sim, build S bodies w = .ok (sim, w') := by
  have hmap : ∀ (l : List (YBody Y D)) (m : NameMap M), (∀ b ∈ l, ∃ m, MeshOf S.readStl S.noMesh b m) →
      ∃ m', makeMeshMap S.readStl S.noMesh l m = .ok m' ∧ (∀ n, (m n).isSome → (m' n).isSome) ∧ ∀ b ∈ l, (m' b.name).isSome := by
    intro l
    induction l with
    | nil => intro m _; exact ⟨m, rfl, fun _ h => h, by simp⟩
    | cons b l ih =>
      intro m h
      obtain ⟨x, hx⟩ := h b (by simp)
      have hg : getMesh S.readStl S.noMesh b = .ok x := by
        unfold getMesh
        rcases hx with ⟨he, rfl⟩ | ⟨he, hx⟩
        · rw [if_pos he]
        · rw [if_neg he, hx]
      obtain ⟨m', e, g1, g2⟩ := ih (m.set b.name x) (fun c hc => h c (by simp [hc]))
      refine ⟨m', by unfold makeMeshMap; rw [hg]; exact e, fun n hn => g1 n ?_, ?_⟩
      · unfold NameMap.set; split <;> simp_all
      · intro c hc
        rcases List.mem_cons.mp hc with rfl | hc
        · exact g1 _ (by simp [NameMap.set])
        · exact g2 c hc
  obtain ⟨meshes, e1, -, hsome⟩ := hmap bodies (fun _ => none) hmesh
  have hbodies : ∀ (l : List (YBody Y D)) (flags : List Bool) (len : LengthMap K) (i : Nat), (∀ b ∈ l, b ∈ bodies) →
      i + l.length ≤ flags.length → ∃ xs, getBodies S.body meshes flags len i l = .ok xs ∧ xs.length = l.length := by
    intro l flags len
    induction l with
    | nil => intro i _ _; exact ⟨[], rfl, rfl⟩
    | cons b l ih =>
      intro i hb hi
      simp only [List.length_cons] at hi
      obtain ⟨m, hm⟩ := Option.isSome_iff_exists.mp (hsome b (hb b (by simp)))
      have hlt : i < flags.length := by omega
      obtain ⟨x, hx⟩ := hbody b (hb b (by simp)) m i (len b.name) flags[i]
      obtain ⟨xs, hxs, hl⟩ := ih (i + 1) (fun c hc => hb c (by simp [hc])) (by omega)
      exact ⟨(b.name, x) :: xs, by simp [getBodies, hm, getAt, List.getElem?_eq_getElem hlt, hx, hxs], by simp [hl]⟩
  obtain ⟨built, e2, hl⟩ := hbodies bodies (surfaceFlags forces) (getMaxHistoryLength (lengths forces) (lengths first)) 0 (fun _ h => h)
    (by simp [surfaceFlags, sections_length h1])
  obtain ⟨x, e3⟩ := hinit
  obtain ⟨f, e4⟩ := simMap_ok forces 0 built (by rw [hl, sections_length h1]; omega) (fun _ => none)
  obtain ⟨c, e5⟩ := simMap_ok controlled 0 built (by rw [hl, sections_length h3]; omega) (fun _ => none)
  refine ⟨⟨built, f, c, x⟩, ?_⟩
  unfold build
  rw [e1]; simp only
  rw [(getForces_iff S.makers hm _ bodies forces w w1).mpr h1]; simp only
  rw [(getForces_iff S.controlledMakers hc _ bodies first w1 w2).mpr h2]; simp only
  rw [e2]; simp only
  rw [e3]; simp only
  rw [(getForces_iff S.controlledMakers hc _ bodies controlled w2 w').mpr h3]; simp only
  rw [e4, e5]

/-! ### Requests sent to distant force models -/

/-- The parameters of the controlled force models, in the order of the file: body and parameters. -/
def parameters (bodies : List (YBody Y D)) : List (Text × Y) := bodies.flatMap (fun b => b.controlled.map (fun m => (b.name, m.yaml)))

/-- The controlled force models are distant ones: when one is constructed, its parameters (with the name of the body) are sent. -/
def Distant (S : Builder Y D K P C (List (Text × Y)) M B X) : Prop :=
  (∀ p ∈ S.makers, ∀ b y w r w', p.make b y w = .ok (r, w') → w' = w) ∧
  (∀ p ∈ S.controlledMakers, ∀ b y w r w', p.make b y w = .ok (r, w') → w' = w ++ [(b, y)])

omit [Field K] [LinearOrder K] [IsStrictOrderedRing K] in
theorem sections_same {makers : List (Maker Y K P W)} (h : ∀ p ∈ makers, ∀ b y w r w', p.make b y w = .ok (r, w') → w' = w)
    {models : YBody Y D → List (Model Y)} {bodies : List (YBody Y D)} {w w' : W} {fs : List (List (Made K P))}
    (hs : Sections makers models bodies w fs w') : w' = w := by
  induction hs with
  | nil => rfl
  | cons b bs f fs w w1 w2 h1 hr ih =>
    rw [ih]
    clear ih hr
    generalize models b = ms at h1
    induction h1 with
    | nil => rfl
    | cons m ms f fs w w1 w2 h2 _ ih =>
      obtain ⟨p, hp, _, _, hmk⟩ := h2
      rw [ih, h p hp _ _ _ _ _ hmk]

omit [Field K] [LinearOrder K] [IsStrictOrderedRing K] in
theorem sections_sent {makers : List (Maker Y K P (List (Text × Y)))}
    (h : ∀ p ∈ makers, ∀ b y w r w', p.make b y w = .ok (r, w') → w' = w ++ [(b, y)])
    {bodies : List (YBody Y D)} {w w' : List (Text × Y)} {fs : List (List (Made K P))}
    (hs : Sections makers YBody.controlled bodies w fs w') : w' = w ++ parameters bodies := by
  induction hs with
  | nil => simp [parameters]
  | cons b bs f fs w w1 w2 h1 hr ih =>
    have key : w1 = w ++ b.controlled.map (fun m => (b.name, m.yaml)) := by
      clear ih hr
      generalize b.controlled = ms at h1 ⊢
      induction h1 with
      | nil => simp
      | cons m ms f fs w w1 w2 h2 _ ih =>
        obtain ⟨p, hp, _, _, hmk⟩ := h2
        rw [ih, h p hp _ _ _ _ _ hmk]
        simp
    rw [ih, key]
    simp [parameters]

/-- **C163** (what the code does) Every distant force model is given its parameters twice, in the order of the file: once to
compute the length of the histories, and once more for the models that are used. -/
theorem parameters_sent_twice_partial (S : Builder Y D K P C (List (Text × Y)) M B X) (hm : (S.makers.map (·.name)).Nodup)
    (hc : (S.controlledMakers.map (·.name)).Nodup) (hd : Distant S) (bodies : List (YBody Y D)) (hn : (bodies.map (·.name)).Nodup)
    (w w' : List (Text × Y)) (sim : Sim K P C B X) (h : build S bodies w = .ok (sim, w')) :
    w' = w ++ parameters bodies ++ parameters bodies := by
  obtain ⟨forces, w1, first, w2, controlled, s1, s2, s3, -⟩ := built_partial S hm hc bodies hn w w' sim h
  rw [sections_sent hd.2 s3, sections_sent hd.2 s2, sections_same hd.1 s1]

/-- **C163** is false in the code: as soon as there is a distant force model, what is sent is not what the file asks for. -/
theorem parameters_sent_refuted (S : Builder Y D K P C (List (Text × Y)) M B X) (hm : (S.makers.map (·.name)).Nodup)
    (hc : (S.controlledMakers.map (·.name)).Nodup) (hd : Distant S) (bodies : List (YBody Y D)) (hn : (bodies.map (·.name)).Nodup)
    (hp : parameters bodies ≠ []) (w w' : List (Text × Y)) (sim : Sim K P C B X) (h : build S bodies w = .ok (sim, w')) :
    w' ≠ w ++ parameters bodies := by
  rw [parameters_sent_twice_partial S hm hc hd bodies hn w w' sim h]
  intro e
  have := congrArg List.length e
  simp only [List.length_append] at this
  exact hp (List.eq_nil_of_length_eq_zero (by omega))

end

/-! ### Examples and refutations -/

set_option synthInstance.maxSize 1000
set_option synthInstance.maxHeartbeats 200000

/-- A simulator with one external force model "f" (surface force) and one distant force model "d", whose parameter is a number. The
constructor of the distant model sends its parameters; the length of history it needs is `tmax` of what was sent before. -/
def demo (tmax : List (Text × ℕ) → ℚ) : Builder ℕ Unit ℚ ℕ ℕ (List (Text × ℕ)) Text (Text × ℕ × ℚ × Bool) Unit where
  makers := [⟨['f'], fun _ y w => .ok ((0, true, y), w)⟩]
  controlledMakers := [⟨['d'], fun b y w => .ok ((tmax w, false, y), w ++ [(b, y)])⟩]
  readStl := .ok
  noMesh := []
  body := fun _ m i T flag => .ok (m, i, T, flag)
  init := fun _ => .ok ()

/-- a ship with a distant force, a barge with a surface force -/
def demoBodies (second : Text) : List (YBody ℕ Unit) :=
  [⟨['s'], ['m'], [], [⟨['d'], 7⟩], ()⟩, ⟨second, [], [⟨['f'], 3⟩], [], ()⟩]

/-- What can be read of a simulation: bodies, force models of a name (their parameters) and of another one. -/
def summary {X : Type} (n n' : Text) (r : Except Err (Sim ℚ ℕ ℕ (Text × ℕ × ℚ × Bool) X × List (Text × ℕ))) :
    Option (List (Text × Text × ℕ × ℚ × Bool) × List (Option (List ℕ)) × List (Text × ℕ)) :=
  match r with
  | .ok (s, w) => some (s.bodies, [(s.forces n).map (·.map (·.rest)), (s.controlled n).map (·.map (·.rest)),
      (s.forces n').map (·.map (·.rest)), (s.controlled n').map (·.map (·.rest))], w)
  | .error _ => none

/-- The hypotheses are met: a simulation of two bodies is built. -/
example : summary ['s'] ['b'] (build (demo fun _ => 5) (demoBodies ['b']) []) =
    some ([(['s'], ['m'], 0, 5, false), (['b'], [], 1, 0, true)], [some [], some [7], some [3], some []], [(['s'], 7), (['s'], 7)]) := by
  decide +kernel

example (f) : ((demo f).makers.map (·.name)).Nodup ∧ ((demo f).controlledMakers.map (·.name)).Nodup ∧ Distant (demo f) ∧
    ((demoBodies ['b']).map (·.name)).Nodup := by
  refine ⟨by simp [demo], by simp [demo], ⟨?_, ?_⟩, by simp [demoBodies]⟩
  · intro p hp b y w r w' h
    simp only [demo, List.mem_singleton] at hp
    subst hp
    simp only [Except.ok.injEq, Prod.mk.injEq] at h
    exact h.2.symm
  · intro p hp b y w r w' h
    simp only [demo, List.mem_singleton] at hp
    subst hp
    simp only [Except.ok.injEq, Prod.mk.injEq] at h
    exact h.2.symm

/-- **C162** is false in the code when two bodies have the same name, which is accepted: the first body loses its mesh and its
force models and gets those of the second one. -/
theorem same_name_refuted : summary ['s'] ['s'] (build (demo fun _ => 5) (demoBodies ['s']) []) =
    some ([(['s'], [], 0, 5, false), (['s'], [], 1, 5, true)], [some [3], some [], some [3], some []], [(['s'], 7), (['s'], 7)]) := by
  decide +kernel

/-- The length of the histories is the one that was needed by the force models constructed first, not by those that are used: a
distant model that asks for a history when it is given its parameters for the second time does not get it. -/
theorem history_of_first_models :
    (match build (demo fun w => if w = [] then 0 else 10) (demoBodies ['b']) [] with
     | .ok (s, _) => some (s.bodies.map (fun b => b.2.2.2.1), (s.controlled ['s']).map (·.map (·.tmax)))
     | .error _ => none) = some ([0, 0], some [10]) := by
  decide +kernel

end Xdyn.Build

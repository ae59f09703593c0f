import Verif.Model.Server
import Verif.Lemmas.History
import Verif.Spec.State
import Mathlib.Tactic.Linarith

/-! Lemmas about the recording of lists of states and about the gRPC conversions. -/

namespace Xdyn.Server

open Spec History

variable {K : Type} [Field K] [LinearOrder K] [IsStrictOrderedRing K]

/-- Thirteen values by name. -/
def ofFun {α : Type} (r : StateName → α) : States α where
  x := r .x
  y := r .y
  z := r .z
  u := r .u
  v := r .v
  w := r .w
  p := r .p
  q := r .q
  r := r .r
  qr := r .qr
  qi := r .qi
  qj := r .qj
  qk := r .qk

@[simp] theorem field_ofFun {α : Type} (r : StateName → α) (s : StateName) : field (ofFun r) s = r s := by
  cases s <;> rfl

theorem record_states (ae : Nat → K → K → Bool) (h : States (History K)) (ys : YamlState K)
    (r : StateName → History K)
    (hr : ∀ s, (field h s).record ae ys.t (field ys.toStates s) = .ok (r s)) :
    States.record ae h ys = .ok (ofFun r) := by
  have e_x := hr .x
  have e_y := hr .y
  have e_z := hr .z
  have e_u := hr .u
  have e_v := hr .v
  have e_w := hr .w
  have e_p := hr .p
  have e_q := hr .q
  have e_r := hr .r
  have e_qr := hr .qr
  have e_qi := hr .qi
  have e_qj := hr .qj
  have e_qk := hr .qk
  simp only [field] at e_x e_y e_z e_u e_v e_w e_p e_q e_r e_qr e_qi e_qj e_qk
  simp only [States.record, e_x, e_y, e_z, e_u, e_v, e_w, e_p, e_q, e_r, e_qr, e_qi, e_qj, e_qk, bind, Except.bind, pure,
    Except.pure]
  rfl

/-- Recording one more date, strictly after the ones already recorded. -/
theorem record_after (ae : Nat → K → K → Bool) (hae : Refl ae) (h : History K) (hi : Inv h) (hT : 0 ≤ h.Tmax)
    (t v : K) (hlt : ∀ b, h.L.getLast? = some b → b.1 < t ∧ ae 4 t b.1 = false) :
    ∃ h', record ae h t v = .ok h' ∧ Inv h' ∧ h'.Tmax = h.Tmax ∧ h'.L.getLast? = some (t, v) ∧
      ((h.L = [] ∨ ∀ p ∈ h.L.head?, h.oldest = p.1) → (∀ p ∈ h.L.head?, t - p.1 < h.Tmax) → (h.L = [] → 0 < h.Tmax) →
        h'.L = h.L ++ [(t, v)] ∧ (∀ p ∈ h'.L.head?, h'.oldest = p.1)) := by
  have hsd : storedDate ae h t = t := by
    unfold storedDate
    cases hb : h.L.getLast? with
    | none => rfl
    | some b => simp [(hlt b hb).2]
  obtain ⟨h1, h', l', e1, e2, e3, e4, e5, e6, -⟩ := record_ok ae hae h hi hT t v (by
    intro b hb; rw [hsd]; exact (hlt b hb).1.le)
  rw [hsd] at e1 e4
  refine ⟨h', e3, e6, e5, by rw [e4]; simp, ?_⟩
  intro ho hspan hpos
  have hall : ∀ p ∈ h.L, p.1 < t := by
    intro p hp
    cases hb : h.L.getLast? with
    | none => rw [List.getLast?_eq_none_iff] at hb; simp [hb] at hp
    | some b =>
      refine lt_of_le_of_lt ?_ (hlt b hb).1
      obtain ⟨l, hl⟩ := List.getLast?_eq_some_iff.1 hb
      have hs := hi.sorted
      rw [hl] at hp hs
      rcases List.mem_append.1 hp with hp | hp
      · exact ((List.pairwise_append.1 hs).2.2 p hp b (by simp)).le
      · simp at hp; subst hp; exact le_rfl
  obtain ⟨idx, hsp, hidx, hadd⟩ := addValue_spec ae hae (updateOldest h t) t v hi.sorted
    (fun p hp => (hall p hp).le)
  have hidx' : idx = h.L.length := by
    by_contra hc
    have h1 : idx < h.L.length := lt_of_le_of_ne hsp.1 hc
    exact absurd (hall _ (List.getElem_mem h1)) (not_lt.2 (hsp.2.2 idx h1 le_rfl))
  have hL1 : (updateOldest h t).L = h.L := rfl
  rw [hadd] at e1
  rw [hL1, hidx', List.take_length] at e1
  simp only [Except.ok.injEq] at e1
  have ho1 : h1.oldest = min (if h.L.isEmpty then t else h.oldest) t := by rw [← e1]; rfl
  have hT1 : h1.Tmax = h.Tmax := by rw [← e1]; rfl
  have hLL : h1.L = h.L ++ [(t, v)] := by rw [← e1]
  have hct : h1.currentTime = t := currentTime_append h1 h.L _ hLL
  have hold : h1.oldest = (h1.L.head?.map Prod.fst).getD 0 ∧ t - h1.oldest < h1.Tmax := by
    cases hc : h.L with
    | nil =>
      rw [ho1, hT1, hLL, hc]
      simp
      exact hpos hc
    | cons a l =>
      have h2 : h.oldest = a.1 := by
        rcases ho with ho | ho
        · simp [hc] at ho
        · exact ho a (by simp [hc])
      have h3 : a.1 < t := hall a (by simp [hc])
      have h4 := hspan a (by simp [hc])
      rw [ho1, hT1, hLL, hc]
      simp [h2, min_eq_left h3.le]
      linarith
  have hshift : shift ae h1 = .ok h1 := by
    unfold shift
    rw [hct, if_neg (not_le.2 hold.2)]
    rfl
  rw [hshift] at e2
  simp only [Except.ok.injEq] at e2
  subst e2
  refine ⟨hLL, ?_⟩
  intro p hp
  rw [hold.1]
  simp only [Option.mem_def] at hp
  simp [hp]

/-- The dates of a list of states: strictly increasing, and told apart by `almost_equal`. -/
def DatesIncrease (ae : Nat → K → K → Bool) (l : List (YamlState K)) : Prop :=
  l.Pairwise (fun a b => a.t < b.t ∧ ae 4 b.t a.t = false)

theorem recordAll (ae : Nat → K → K → Bool) (hae : Refl ae) (Tmax : K) (hT : 0 ≤ Tmax) (l : List (YamlState K))
    (hd : DatesIncrease ae l) :
    ∃ h', l.foldlM (fun h s => States.record ae h s) (States.newHistories Tmax) = .ok h' ∧
      ∀ s, Inv (field h' s) ∧ (field h' s).Tmax = Tmax ∧
        (field h' s).L.getLast? = l.getLast?.map (fun a => (a.t, field a.toStates s)) ∧
        (0 < Tmax → (∀ a ∈ l, ∀ b ∈ l, b.t - a.t < Tmax) →
          (field h' s).L = l.map (fun a => (a.t, field a.toStates s)) ∧
          (∀ p ∈ (field h' s).L.head?, (field h' s).oldest = p.1)) := by
  induction l using List.reverseRecOn with
  | nil =>
    refine ⟨States.newHistories Tmax, rfl, fun s => ?_⟩
    have : field (States.newHistories Tmax) s = History.new Tmax := by cases s <;> rfl
    rw [this]
    exact ⟨inv_new Tmax, rfl, rfl, fun _ _ => ⟨rfl, by simp [History.new]⟩⟩
  | append_singleton l a ih =>
    have hd' := List.pairwise_append.1 hd
    obtain ⟨h, hh, hs⟩ := ih hd'.1
    have hrec : ∀ s, ∃ h', record ae (field h s) a.t (field a.toStates s) = .ok h' ∧ Inv h' ∧ h'.Tmax = Tmax ∧
        h'.L.getLast? = some (a.t, field a.toStates s) ∧
        (0 < Tmax → (∀ p ∈ l ++ [a], ∀ q ∈ l ++ [a], q.t - p.t < Tmax) →
          h'.L = (l ++ [a]).map (fun a => (a.t, field a.toStates s)) ∧
          (∀ p ∈ h'.L.head?, h'.oldest = p.1)) := by
      intro s
      obtain ⟨h1, h2, h3, h4⟩ := hs s
      obtain ⟨h', e1, e2, e3, e4, e5⟩ := record_after ae hae (field h s) h1 (by rw [h2]; exact hT) a.t (field a.toStates s)
        (by
          intro b hb
          rw [h3] at hb
          simp only [Option.map_eq_some_iff] at hb
          obtain ⟨c, hc, rfl⟩ := hb
          exact hd'.2.2 c (List.mem_of_getLast? hc) a (by simp))
      refine ⟨h', e1, e2, by rw [e3, h2], e4, ?_⟩
      intro hpos hspan
      obtain ⟨f1, f2⟩ := h4 hpos (fun p hp q hq => hspan p (by simp [hp]) q (by simp [hq]))
      obtain ⟨g1, g2⟩ := e5 (Or.inr f2) (by
        intro p hp
        rw [h2]
        rw [f1] at hp
        simp only [List.head?_map, Option.mem_def, Option.map_eq_some_iff] at hp
        obtain ⟨c, hc, rfl⟩ := hp
        exact hspan c (by simp [List.mem_of_head? hc]) a (by simp)) (fun _ => by rw [h2]; exact hpos)
      exact ⟨by rw [g1, f1]; simp, g2⟩
    choose r hr using hrec
    refine ⟨ofFun r, ?_, ?_⟩
    · rw [List.foldlM_append, hh]
      simp only [bind, Except.bind, List.foldlM_cons, List.foldlM_nil]
      rw [record_states ae h a r (fun s => (hr s).1)]
      rfl
    · intro s
      rw [field_ofFun]
      obtain ⟨-, h2, h3, h4, h5⟩ := hr s
      exact ⟨h2, h3, by rw [h4]; simp, h5⟩

theorem foldlM_pair (ae : Nat → K → K → Bool) (l : List (YamlState K)) : ∀ (h1 h2 h1' h2' : States (History K)),
    l.foldlM (fun h s => States.record ae h s) h1 = .ok h1' →
    l.foldlM (fun h s => States.record ae h s) h2 = .ok h2' →
    l.foldlM (fun (h : States (History K) × States (History K)) s => do
      let h1 ← h.1.record ae s
      let h2 ← h.2.record ae s
      return (h1, h2)) (h1, h2) = .ok (h1', h2') := by
  induction l with
  | nil =>
    intro h1 h2 h1' h2' e1 e2
    simp [pure, Except.pure] at e1 e2 ⊢
    exact ⟨e1, e2⟩
  | cons a l ih =>
    intro h1 h2 h1' h2' e1 e2
    simp only [List.foldlM_cons, bind, Except.bind, pure, Except.pure] at e1 e2 ⊢
    cases f1 : States.record ae h1 a with
    | error e => simp [f1] at e1
    | ok g1 =>
      cases f2 : States.record ae h2 a with
      | error e => simp [f2] at e2
      | ok g2 =>
        simp only [f1, f2] at e1 e2 ⊢
        exact ih g1 g2 h1' h2' e1 e2

theorem mapM_range {α : Type} (f : Nat → Except Err α) (n : Nat) (g : Nat → α) (h : ∀ i < n, f i = .ok (g i)) :
    (List.range n).mapM f = .ok ((List.range n).map g) := by
  have : ∀ l : List Nat, (∀ i ∈ l, f i = .ok (g i)) → l.mapM f = .ok (l.map g) := by
    intro l
    induction l with
    | nil => intro _; rfl
    | cons a l ih =>
      intro hl
      rw [List.mapM_cons, hl a (by simp), ih (fun i hi => hl i (by simp [hi]))]
      rfl
  exact this _ (fun i hi => h i (List.mem_range.1 hi))

theorem getUB_getD {l : List K} {i n : Nat} (hn : l.length = n) (h : i < n) : getUB l i = .ok (l.getD i 0) := by
  subst hn
  simp [getUB, h, List.getD]

end Xdyn.Server

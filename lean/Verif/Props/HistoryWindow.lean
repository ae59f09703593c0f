import Verif.Props.History
import Mathlib.Tactic.IntervalCases

/-! Properties C14-C15: dropping old samples, and average of a `History`. -/

namespace Xdyn.History

open Spec

variable {K : Type} [Field K] [LinearOrder K] [IsStrictOrderedRing K]

/-- From the first remaining sample on, dropping samples does not change the curve. -/
theorem curve_drop (L : List (K × K)) (hs : Sorted L) (k : Nat) (hk : k < L.length) (s y : K)
    (hfront : (L[k]).1 ≤ s) : Curve (L.drop k) s y ↔ Curve L s y := by
  constructor
  · rintro (h | ⟨a, b, ⟨i, ha, hb⟩, h1, h2, h3⟩)
    · exact Or.inl (List.mem_of_mem_drop h)
    · refine Or.inr ⟨a, b, ⟨k + i, ?_, ?_⟩, h1, h2, h3⟩
      · simpa [List.getElem?_drop] using ha
      · simpa [List.getElem?_drop, Nat.add_assoc] using hb
  · rintro (h | ⟨a, b, ⟨i, ha, hb⟩, h1, h2, h3⟩)
    · left
      obtain ⟨i, hi, he⟩ := List.getElem_of_mem h
      have hki : k ≤ i := by
        by_contra hc
        have := hs.lt hk (i := i) (by omega)
        rw [he] at this
        exact absurd hfront (not_le.2 this)
      have : (L.drop k)[i - k]'(by simp; omega) = (s, y) := by
        rw [List.getElem_drop]
        simp only [show k + (i - k) = i by omega]; exact he
      rw [← this]; exact List.getElem_mem _
    · right
      obtain ⟨hi1, hb'⟩ := List.getElem?_eq_some_iff.1 hb
      have hki : k ≤ i := by
        by_contra hc
        have := hs.le hk (i := i + 1) (by omega)
        rw [hb'] at this
        exact absurd (hfront.trans_lt h2) (not_lt.2 this)
      refine ⟨a, b, ⟨i - k, ?_, ?_⟩, h1, h2, h3⟩
      · rw [List.getElem?_drop, show k + (i - k) = i by omega]; exact ha
      · rw [List.getElem?_drop, show k + (i - k + 1) = i + 1 by omega]; exact hb

/-- Two curves with the same tail agree from its first sample on. -/
theorem curve_cons (p q : K × K) (l : List (K × K)) (hs : Sorted (p :: q :: l)) (s y : K) (h : q.1 ≤ s) :
    Curve (q :: l) s y ↔ Curve (p :: q :: l) s y := by
  simpa using curve_drop (p :: q :: l) hs 1 (by simp) s y (by simpa using h)

/-- On the first interval, the curve is the line. -/
theorem curve_first (p q : K × K) (l : List (K × K)) (hs : Sorted (p :: q :: l)) (s y : K)
    (h1 : p.1 ≤ s) (h2 : s < q.1) : Curve (p :: q :: l) s y ↔ y = line p q s := by
  have hpq : p.1 < q.1 := (List.pairwise_cons.1 hs).1 q (by simp)
  have htail : ∀ r ∈ q :: l, q.1 ≤ r.1 := by
    intro r hr
    rcases List.mem_cons.1 hr with rfl | hr
    · exact le_rfl
    · exact ((List.pairwise_cons.1 (List.pairwise_cons.1 hs).2).1 r hr).le
  constructor
  · rintro (h | ⟨a, b, ⟨i, ha, hb⟩, h3, h4, h5⟩)
    · rcases List.mem_cons.1 h with he | h
      · have e1 : p.1 = s := (congrArg Prod.fst he).symm
        have e2 : p.2 = y := (congrArg Prod.snd he).symm
        unfold line; rw [e1, e2]; simp
      · exact absurd (htail _ h) (not_le.2 h2)
    · cases i with
      | zero =>
        simp at ha hb
        subst ha; subst hb; exact h5
      | succ i =>
        exfalso
        have : a ∈ q :: l := by
          have ha' : (q :: l)[i]? = some a := by simpa using ha
          exact List.mem_of_getElem? ha'
        exact absurd (h3.trans h2) (not_lt.2 (htail a this))
  · intro hy
    rcases eq_or_lt_of_le h1 with he | hlt
    · left
      have : y = p.2 := by rw [hy]; unfold line; rw [← he]; simp
      rw [this, ← he]; simp
    · exact Or.inr ⟨p, q, ⟨0, by simp, by simp⟩, hlt, h2, hy⟩

/-- **C14, partial** In a reachable history, let `record(t,v)` succeed, and let `U` be what
would be stored if nothing were dropped: the samples before the stored date followed by the
new sample.  If at most one sample is older than `Tmax` (in `U`), and no sample is within
1E-12 of the beginning of the window, then the curve through the samples is unchanged
over the whole remaining window.  Missing: several samples dropped at once (refuted below)
and the 1E-12 neighbourhoods of the samples. -/
theorem history_drop_preserves_window_partial (ae : Nat → K → K → Bool) (hae : ∀ n a, ae n a a = true)
    (Tmax : K) (hT : 0 ≤ Tmax) (ops : List (Op K)) (t v : K) (h' : History K)
    (hok : record ae (run ae Tmax ops) t v = .ok h') :
    let U := (run ae Tmax ops).L.filter (fun p => p.1 < h'.currentTime) ++ [(h'.currentTime, v)]
    U.countP (fun p => p.1 < h'.currentTime - Tmax) ≤ 1 →
    (∀ p ∈ U, p.1 = h'.currentTime - Tmax ∨ 1 / 10 ^ 12 ≤ |h'.currentTime - Tmax - p.1|) →
    ∀ s y, (∀ p ∈ h'.L.head?, p.1 ≤ s) → (∀ p ∈ U.head?, p.1 ≤ s) →
      (Curve h'.L s y ↔ Curve U s y) := by
  intro U hcount hnear s y hfront' hfrontU
  obtain ⟨hi, hT'⟩ := run_inv ae hae Tmax hT ops
  set h := run ae Tmax ops with hh
  have hb : ∀ b, h.L.getLast? = some b → b.1 ≤ storedDate ae h t := by
    rcases record_cases ae hae h hi (hT' ▸ hT) t v with ⟨b, w, h1, h2, h3, e⟩ | ⟨h2, l', hb, -⟩
    · rw [e] at hok; cases hok
    · exact hb
  obtain ⟨h1, h2, l', ha, hsh, e1, e2, e3, e4, e5⟩ := record_ok ae hae h hi (hT' ▸ hT) t v hb
  rw [e1] at hok; cases hok
  have hct : h'.currentTime = storedDate ae h t := currentTime_append h' l' _ e2
  set d := storedDate ae h t with hd
  -- `U` is the content after `add_value_to_history`
  have hle : ∀ p ∈ h.L, p.1 ≤ d := by
    intro p hp
    cases hbb : h.L.getLast? with
    | none => rw [List.getLast?_eq_none_iff] at hbb; simp [hbb] at hp
    | some b =>
      refine le_trans ?_ (hb b hbb)
      obtain ⟨l, hl⟩ := List.getLast?_eq_some_iff.1 hbb
      have hs := hi.sorted
      rw [hl] at hp hs
      rcases List.mem_append.1 hp with hp | hp
      · exact ((List.pairwise_append.1 hs).2.2 p hp b (by simp)).le
      · simp at hp; subst hp; exact le_rfl
  obtain ⟨idx, hsp, -, hadd⟩ := addValue_spec ae hae (updateOldest h d) d v hi.sorted hle
  rw [hadd] at ha
  have hspL : Splits h.L d idx := hsp
  have hfilter : h.L.filter (fun p => p.1 < d) = h.L.take idx := by
    conv_lhs => rw [← List.take_append_drop idx h.L, List.filter_append]
    have a1 : (h.L.take idx).filter (fun p => p.1 < d) = h.L.take idx := by
      rw [List.filter_eq_self]
      intro p hp
      obtain ⟨i, hi', rfl⟩ := List.getElem_of_mem hp
      simp at hi'
      rw [List.getElem_take]
      simpa using hspL.2.1 i hi'.2 hi'.1
    have a2 : (h.L.drop idx).filter (fun p => p.1 < d) = [] := by
      rw [List.filter_eq_nil_iff]
      intro p hp
      simpa using splits_drop hspL p hp
    rw [a1, a2, List.append_nil]
  have hU : h1.L = U := by
    have : h1.L = h.L.take idx ++ [(d, v)] := by cases ha; rfl
    rw [this, ← hfilter]; simp only [U, hct, h]
  have hT1 : h1.Tmax = Tmax := by cases ha; exact hT'
  have hsU : Sorted U := by
    rw [← hU]; cases ha; exact sorted_take_append hi.sorted hspL
  have hUl : h1.L = h.L.take idx ++ [(d, v)] := by cases ha; rfl
  rw [hct] at hcount hnear
  rcases shift_spec ae hae h1 (h.L.take idx) d v hUl (hU ▸ hsU) (hT1 ▸ hT) with
    ⟨-, hr⟩ | ⟨-, k, vmin, hk, hkl, hv, hr | ⟨hlt, hr⟩⟩
  · rw [hr] at hsh; cases hsh
    rw [hU]
  · rw [hr] at hsh; cases hsh
    simp only [hU] at hfront' ⊢
    have hklt : k < U.length := by rw [← hU, hUl]; simp at hkl ⊢; omega
    refine curve_drop U hsU k hklt s y ?_
    apply hfront'
    simp [List.head?_drop, List.getElem?_eq_getElem hklt]
  · rw [hr] at hsh; cases hsh
    rw [hT1] at hk hlt hv hfront' ⊢
    rw [hU] at hk hlt hv hfront' ⊢
    simp only at hfront' ⊢
    have hos : d - Tmax ≤ s := hfront' (d - Tmax, vmin) (by simp)
    have hk1 : k ≤ 1 := by
      have := history_bracket U hsU (d - Tmax)
      rw [bracket_eq U _ hsU hk] at this
      have e := this.1
      injection e with e
      omega
    have hsN : Sorted ((d - Tmax, vmin) :: U.drop k) :=
      List.pairwise_cons.2 ⟨fun p hp => hlt p hp, hsU.sublist (List.drop_sublist _ _)⟩
    have hklt : k < U.length := by rw [← hU, hUl]; simp at hkl ⊢; omega
    interval_cases k
    · -- no sample older than the window
      cases hUc : U with
      | nil => simp [hUc] at hklt
      | cons q l =>
        simp only [List.drop_zero, hUc] at hsN ⊢
        rw [← curve_cons _ q l hsN]
        exact hfrontU q (by simp [hUc])
    · cases hUc : U with
      | nil => simp [hUc] at hklt
      | cons p l =>
        cases l with
        | nil => simp [hUc] at hklt
        | cons q l =>
          simp only [List.drop_succ_cons, List.drop_zero, hUc] at hsN hlt ⊢
          have hsU' : Sorted (p :: q :: l) := hUc ▸ hsU
          have hoq : d - Tmax < q.1 := hlt q (by simp)
          have hpo : p.1 < d - Tmax := by
            have := hk.2.1 0 (by omega) (by omega)
            simpa [hUc] using this
          by_cases hsq : q.1 ≤ s
          · rw [← curve_cons _ q l hsN s y hsq, ← curve_cons p q l hsU' s y hsq]
          · have hsq' := not_le.1 hsq
            rw [curve_first _ q l hsN s y hos hsq', curve_first p q l hsU' s y (hpo.le.trans hos) hsq']
            have hvm : vmin = line p q (d - Tmax) := by
              have hmid := interpolate_mid U 0 (by omega) (d - Tmax)
              rw [hv] at hmid
              injection hmid with hmid
              have n1 := hnear p (by rw [hUc]; simp)
              have n2 := hnear q (by rw [hUc]; simp)
              have e0 : U[0]'(by omega) = p := by simp [hUc]
              have e1 : U[0 + 1]'(by omega) = q := by simp [hUc]
              rw [e0, e1] at hmid
              rw [if_neg, if_neg] at hmid
              · rw [hmid]; unfold line; ring
              · rcases n2 with n2 | n2
                · exact absurd n2 (ne_of_gt hoq)
                · unfold eps; exact not_lt.2 n2
              · rcases n1 with n1 | n1
                · exact absurd n1 (ne_of_lt hpo)
                · unfold eps; exact not_lt.2 n1
            have : line (d - Tmax, vmin) q s = line p q s := by
              rw [hvm]
              unfold line
              have d1 : q.1 - p.1 ≠ 0 := by intro hc; linarith
              have d2 : q.1 - (d - Tmax) ≠ 0 := by intro hc; linarith
              field_simp
              ring
            rw [this]

/-- The hypotheses of C14 are met by a record that drops one sample and re-creates a point. -/
example : let h' := run aeQ 2 [.record 0 0, .record 1 10, .record 2 0, .record (5 / 2) 3]
    let U := (run aeQ 2 [.record 0 0, .record 1 10, .record 2 0]).L.filter (fun p => p.1 < h'.currentTime) ++
      [(h'.currentTime, 3)]
    U.countP (fun p => p.1 < h'.currentTime - 2) ≤ 1 ∧
    (∀ p ∈ U, p.1 = h'.currentTime - 2 ∨ 1 / 10 ^ 12 ≤ |h'.currentTime - 2 - p.1|) ∧
    h'.L = [(1 / 2, 5), (1, 10), (2, 0), (5 / 2, 3)] := by decide +kernel

/-- **C14, refuted** When a `record` drops several samples, the point re-created at the
beginning of the window is extrapolated from the first two (dropped) samples: after
recording (0,0), (1,10), (2,0), (4.5,0) with `Tmax = 3`, `h(3)` is 15, whereas the recorded
curve is 5 at that date - which is what a history with a longer memory returns. -/
theorem history_drop_refuted :
    value (run aeQ 3 [.record 0 0, .record 1 10, .record 2 0, .record (9 / 2) 0]) 3 = .ok 15 ∧
    value (run aeQ 10 [.record 0 0, .record 1 10, .record 2 0, .record (9 / 2) 0]) 3 = .ok 5 := by
  decide +kernel

/-- Bounds of the integral. -/
theorem integrate_bounds (m M : K) : ∀ (a : K × K) (l : List (K × K)), Sorted (a :: l) →
    (∀ p ∈ a :: l, m ≤ p.2 ∧ p.2 ≤ M) →
    m * (((a :: l).getLast (by simp)).1 - a.1) ≤ integrate (a :: l) ∧
    integrate (a :: l) ≤ M * (((a :: l).getLast (by simp)).1 - a.1)
  | a, [], _, _ => by simp [integrate]
  | a, b :: l, hs, hb => by
    have hs' := (List.pairwise_cons.1 hs)
    obtain ⟨i1, i2⟩ := integrate_bounds m M b l hs'.2 (fun p hp => hb p (by simp [List.mem_cons.1 hp]))
    have hab := hs'.1 b (by simp)
    have ha := hb a (by simp)
    have hbb := hb b (by simp)
    rw [List.getLast_cons (by simp)]
    simp only [integrate, trapeze]
    have hw : 0 < b.1 - a.1 := by linarith
    constructor
    · have : m * (b.1 - a.1) ≤ (b.1 - a.1) * (a.2 + b.2) / 2 := by nlinarith
      linarith
    · have : (b.1 - a.1) * (a.2 + b.2) / 2 ≤ M * (b.1 - a.1) := by nlinarith
      linarith

theorem getLast_drop (L : List (K × K)) (idx : Nat) (h : idx < L.length) :
    (L[idx] :: L.drop (idx + 1)).getLast (List.cons_ne_nil _ _) = L[L.length - 1]'(by omega) := by
  have e : L[idx] :: L.drop (idx + 1) = L.drop idx := (List.drop_eq_getElem_cons h).symm
  have e2 : (L.drop idx).getLast? = L.getLast? := by
    rw [List.getLast?_drop, if_neg (by omega)]
  have e3 : (L[idx] :: L.drop (idx + 1)).getLast? = L.getLast? := by rw [e, e2]
  rw [List.getLast?_eq_some_getLast (List.cons_ne_nil _ _), List.getLast?_eq_getElem?,
    List.getElem?_eq_getElem (by omega)] at e3
  injection e3

theorem integrate_eq_area : ∀ L : List (K × K), integrate L = area L
  | [] => rfl
  | [_] => rfl
  | a :: b :: l => by
    simp only [integrate, area, trapeze, integrate_eq_area (b :: l)]
    ring

/-- **C15** For a non-empty history with strictly increasing dates and `T ≥ 0`, `average(T)`
succeeds and lies between any bounds of the recorded values (in particular it is the common
value of the samples if they are all equal). -/
theorem history_average_bounds (h : History K) (hs : StrictlyIncreasing h.L) (hne : h.L ≠ [])
    (T m M : K) (hT : 0 ≤ T) (hb : ∀ p ∈ h.L, m ≤ p.2 ∧ p.2 ≤ M) :
    ∃ y, average h T = .ok y ∧ m ≤ y ∧ y ≤ M := by
  have hlen : 0 < h.L.length := List.length_pos_of_ne_nil hne
  have e1 : h.L.head? = some h.L[0] := by
    rw [List.head?_eq_getElem?, List.getElem?_eq_getElem hlen]
  have e2 : h.L.getLast? = some (h.L[h.L.length - 1]) := by
    rw [List.getLast?_eq_getElem?, List.getElem?_eq_getElem]
  have e3 : h.currentTime = (h.L[h.L.length - 1]).1 := by simp [currentTime, e2]
  have e4 : h.duration = (h.L[h.L.length - 1]).1 - (h.L[0]).1 := by simp [duration, durationOf, e1, e2]
  have h2 : ∀ p, h.L = [p] → average h T = .ok p.2 := by intro p hp; simp [average, hp]
  by_cases hl1 : ∃ p, h.L = [p]
  · obtain ⟨p, hp⟩ := hl1
    exact ⟨p.2, h2 p hp, hb p (by simp [hp])⟩
  · have hdef : average h T = (if T < 0 then .error (.throw "supplied length is negative")
      else do
        let T := min T h.duration
        let t := h.currentTime - T
        let idx ← bracket h.L t
        let firstValue ← interpolate h.L idx t
        let p ← getAt h.L idx
        let i0 := trapeze t firstValue p.1 p.2
        let i1 := integrate (h.L.drop idx)
        if T ≠ 0 then return (i0 + i1) / T
        else
          let b ← getUB h.L (h.L.length - 1)
          return b.2) := by
      unfold average
      split
      · contradiction
      · rename_i a heq; exact absurd ⟨a, heq⟩ hl1
      · rfl
    rw [hdef, if_neg (not_lt.2 hT)]
    dsimp only
    have hd0 : 0 ≤ h.duration := by
      rw [e4]; have := Sorted.le hs (i := 0) (j := h.L.length - 1) (by omega) (by omega); linarith
    set T' := min T h.duration with hT'
    have hT0 : 0 ≤ T' := le_min hT hd0
    have hTd : T' ≤ h.duration := min_le_right _ _
    set t := h.currentTime - T' with ht
    obtain ⟨idx, hi, hsp⟩ := bracket_splits h.L t hs
    have hidx : idx < h.L.length := by
      by_contra hcon
      have := hsp.2.1 (h.L.length - 1) (by omega) (by omega)
      rw [← e3] at this
      linarith
    have hge := hsp.2.2 idx hidx le_rfl
    obtain ⟨fv, hfv, hfm, hfM⟩ : ∃ fv, interpolate h.L idx t = .ok fv ∧ m ≤ fv ∧ fv ≤ M := by
      cases idx with
      | zero => exact ⟨_, interpolate_zero _ hidx _, hb _ (List.getElem_mem _)⟩
      | succ i =>
        refine ⟨_, interpolate_mid _ _ hidx _, ?_⟩
        have hA := hsp.2.1 i (by omega) (by omega)
        have bA := hb _ (List.getElem_mem (l := h.L) (n := i) (by omega))
        have bB := hb _ (List.getElem_mem (l := h.L) (n := i + 1) hidx)
        split_ifs with c1 c2
        · exact bA
        · exact bB
        · set u := (t - (h.L[i]).1) / ((h.L[i + 1]).1 - (h.L[i]).1) with hu
          have hu0 : 0 ≤ u := div_nonneg (by linarith) (by linarith)
          have hu1 : u ≤ 1 := by rw [hu, div_le_one (by linarith)]; linarith
          constructor <;> nlinarith
    have hat : getAt h.L idx = .ok (h.L[idx]) := by simp [getAt, List.getElem?_eq_getElem hidx]
    have hub := getUB_eq h.L (h.L.length - 1) (by omega)
    simp only [hi, hfv, hat, hub, bind, Except.bind, pure, Except.pure]
    by_cases hz : T' = 0
    · simp only [hz, ne_eq, not_true_eq_false, if_false]
      exact ⟨_, rfl, hb _ (List.getElem_mem _)⟩
    · simp only [ne_eq, hz, not_false_eq_true, if_true]
      refine ⟨_, rfl, ?_⟩
      have hTpos : 0 < T' := lt_of_le_of_ne hT0 (Ne.symm hz)
      have hdrop : h.L.drop idx = h.L[idx] :: h.L.drop (idx + 1) := List.drop_eq_getElem_cons hidx
      have hsd : Sorted (h.L[idx] :: h.L.drop (idx + 1)) := by
        rw [← hdrop]; exact List.Pairwise.sublist (List.drop_sublist _ _) hs
      have hbd : ∀ p ∈ h.L[idx] :: h.L.drop (idx + 1), m ≤ p.2 ∧ p.2 ≤ M := by
        intro p hp; rw [← hdrop] at hp; exact hb p (List.mem_of_mem_drop hp)
      have hib := integrate_bounds m M _ _ hsd hbd
      have hlast : ((h.L[idx] :: h.L.drop (idx + 1)).getLast (List.cons_ne_nil _ _)).1 = h.currentTime := by
        rw [e3, getLast_drop h.L idx hidx]
      rw [hlast] at hib
      rw [hdrop]
      have bI := hb _ (List.getElem_mem (l := h.L) (n := idx) hidx)
      have hw : 0 ≤ (h.L[idx]).1 - t := by linarith
      simp only [trapeze]
      have l1 : m * ((h.L[idx]).1 - t) ≤ ((h.L[idx]).1 - t) * (fv + (h.L[idx]).2) / 2 := by nlinarith
      have l2 : ((h.L[idx]).1 - t) * (fv + (h.L[idx]).2) / 2 ≤ M * ((h.L[idx]).1 - t) := by nlinarith
      have hTt : T' = h.currentTime - t := by rw [ht]; ring
      constructor
      · rw [le_div_iff₀ hTpos, hTt]; linarith [hib.1]
      · rw [div_le_iff₀ hTpos, hTt]; linarith [hib.2]

/-- **C15** For `T ≥ duration > 0`, `average(T)` is the area under the recorded curve divided
by the duration. -/
theorem history_average_whole (h : History K) (hs : StrictlyIncreasing h.L) (T : K)
    (hd : 0 < h.duration) (hT : h.duration ≤ T) :
    average h T = .ok (area h.L / h.duration) := by
  have hne : h.L ≠ [] := by
    intro hc; simp [duration, durationOf, hc] at hd
  have hlen : 0 < h.L.length := List.length_pos_of_ne_nil hne
  have e1 : h.L.head? = some h.L[0] := by
    rw [List.head?_eq_getElem?, List.getElem?_eq_getElem hlen]
  have e2 : h.L.getLast? = some (h.L[h.L.length - 1]) := by
    rw [List.getLast?_eq_getElem?, List.getElem?_eq_getElem]
  have e3 : h.currentTime = (h.L[h.L.length - 1]).1 := by simp [currentTime, e2]
  have e4 : h.duration = (h.L[h.L.length - 1]).1 - (h.L[0]).1 := by simp [duration, durationOf, e1, e2]
  have ht : h.currentTime - h.duration = (h.L[0]).1 := by rw [e3, e4]; ring
  have hsp : Splits h.L (h.L[0]).1 0 := splits_of hs hlen (fun h => by omega) le_rfl
  unfold average
  split
  · contradiction
  · rename_i a heq
    simp [duration, durationOf, heq] at hd
  · rw [if_neg (not_lt.2 (hd.le.trans hT)), min_eq_right hT]
    dsimp only
    rw [ht]
    have hat : getAt h.L 0 = .ok (h.L[0]) := by simp [getAt, List.getElem?_eq_getElem hlen]
    simp only [bracket_eq h.L _ hs hsp, interpolate_zero _ hlen, hat, bind, Except.bind, pure, Except.pure,
      ne_eq, ne_of_gt hd, not_false_eq_true, if_true, List.drop_zero]
    rw [integrate_eq_area]
    simp [trapeze]

/-- A negative averaging length is refused as soon as there are two samples. -/
theorem history_average_negative (h : History K) (a b : K × K) (l : List (K × K)) (hL : h.L = a :: b :: l)
    (T : K) (hT : T < 0) : average h T = .error (.throw "supplied length is negative") := by
  simp [average, hL, hT]

/-- A concrete average: samples 5, 7, 9 at dates 0, 1, 3. -/
example : let h := run aeQ 10 [.record 0 5, .record 1 7, .record 3 9]
    0 < h.duration ∧ average h 3 = .ok (22 / 3) ∧ average h 1 = .ok (17 / 2) := by decide +kernel

end Xdyn.History

import Verif.Lemmas.History
import Verif.Spec.History

/-! Properties C08-C15: class `History`. -/

namespace Xdyn.History

open Spec

variable {K : Type} [Field K] [LinearOrder K] [IsStrictOrderedRing K]

/-- A call that modifies a history. -/
inductive Op (K : Type) where
  | record (t v : K)
  | reset

/-- Effect of a call.  When `record` throws (History.cpp:208-220) no data member has been
modified yet: the history is unchanged and the caller may go on using it. -/
def step (ae : Nat → K → K → Bool) (h : History K) : Op K → History K
  | .record t v => match record ae h t v with
    | .ok h' => h'
    | .error _ => h
  | .reset => reset h

/-- History obtained from a fresh one by an arbitrary sequence of calls. -/
def run (ae : Nat → K → K → Bool) (Tmax : K) (ops : List (Op K)) : History K :=
  ops.foldl (step ae) (new Tmax)

theorem record_cases (ae : Nat → K → K → Bool) (hae : Refl ae) (h : History K) (hi : Inv h)
    (hT : 0 ≤ h.Tmax) (t v : K) :
    (∃ b w, h.L.getLast? = some b ∧ t < b.1 ∧ ae 4 t b.1 = false ∧ record ae h t v = .error (.throw w)) ∨
    (∃ h' l', (∀ b, h.L.getLast? = some b → b.1 ≤ storedDate ae h t) ∧
      record ae h t v = .ok h' ∧ h'.L = l' ++ [(storedDate ae h t, v)] ∧ h'.Tmax = h.Tmax ∧ Inv h' ∧
      ∀ p ∈ l', p ∈ h.L ∨ p.1 = storedDate ae h t - h.Tmax) := by
  by_cases hc : ∃ b, h.L.getLast? = some b ∧ storedDate ae h t < b.1
  · obtain ⟨b, hb, hlt⟩ := hc
    left
    simp only [storedDate, hb] at hlt
    cases ha : ae 4 t b.1 with
    | true => simp [ha] at hlt
    | false =>
      simp [ha] at hlt
      exact ⟨b, _, hb, hlt, ha, by simp only [record, hb, ha]; simp [hlt]; rfl⟩
  · right
    have hb : ∀ b, h.L.getLast? = some b → b.1 ≤ storedDate ae h t := by
      intro b hb
      by_contra hcon
      exact hc ⟨b, hb, not_le.1 hcon⟩
    obtain ⟨h1, h', l', -, -, e1, e2, e3, e4, e5⟩ := record_ok ae hae h hi hT t v hb
    exact ⟨h', l', hb, e1, e2, e3, e4, e5⟩

theorem run_inv (ae : Nat → K → K → Bool) (hae : Refl ae) (Tmax : K) (hT : 0 ≤ Tmax) (ops : List (Op K)) :
    Inv (run ae Tmax ops) ∧ (run ae Tmax ops).Tmax = Tmax := by
  have key : ∀ (h : History K), Inv h → h.Tmax = Tmax →
      Inv (ops.foldl (step ae) h) ∧ (ops.foldl (step ae) h).Tmax = Tmax := by
    induction ops with
    | nil => intro h h1 h2; exact ⟨h1, h2⟩
    | cons o ops ih =>
      intro h h1 h2
      refine ih _ ?_ ?_
      · cases o with
        | reset => exact inv_reset h
        | record t v =>
          rcases record_cases ae hae h h1 (h2 ▸ hT) t v with ⟨b, w, -, -, -, e⟩ | ⟨h', l', -, e, -, -, e', -⟩
          · simp only [step, e]; exact h1
          · simp only [step, e]; exact e'
      · cases o with
        | reset => exact h2
        | record t v =>
          rcases record_cases ae hae h h1 (h2 ▸ hT) t v with ⟨b, w, -, -, -, e⟩ | ⟨h', l', -, e, -, e', -, -⟩
          · simp only [step, e]; exact h2
          · simp only [step, e]; rw [e', h2]
  exact key _ (inv_new Tmax) rfl

/-- **C08** After any sequence of calls to `record` (accepted or not) and `reset`, the
recorded dates are strictly increasing. -/
theorem history_dates_increasing (ae : Nat → K → K → Bool) (hae : ∀ n a, ae n a a = true)
    (Tmax : K) (hT : 0 ≤ Tmax) (ops : List (Op K)) :
    StrictlyIncreasing (run ae Tmax ops).L :=
  (run_inv ae hae Tmax hT ops).1.sorted

/-- **C09** In any reachable history, `record` throws exactly when the date is before the
latest one and not almost equal to it; otherwise it succeeds (it never reads out of bounds)
and the latest date is `t`, or the previous latest date if `t` is almost equal to it. -/
theorem history_record_outcome (ae : Nat → K → K → Bool) (hae : ∀ n a, ae n a a = true)
    (Tmax : K) (hT : 0 ≤ Tmax) (ops : List (Op K)) (t v : K) :
    let h := run ae Tmax ops
    ((∃ w, record ae h t v = .error (.throw w)) ↔
      ∃ b, h.L.getLast? = some b ∧ t < b.1 ∧ ae 4 t b.1 = false) ∧
    ((∃ w, record ae h t v = .error (.throw w)) ∨
      ∃ h', record ae h t v = .ok h' ∧
        ((h.L = [] ∧ h'.currentTime = t) ∨
         ∃ b, h.L.getLast? = some b ∧ h'.currentTime = if ae 4 t b.1 then b.1 else t)) := by
  intro h
  obtain ⟨hi, hT'⟩ := run_inv ae hae Tmax hT ops
  change Inv h at hi
  change h.Tmax = Tmax at hT'
  rcases record_cases ae hae h hi (hT' ▸ hT) t v with ⟨b, w, h1, h2, h3, e⟩ | ⟨h', l', hb, e, e', -, -, -⟩
  · exact ⟨⟨fun _ => ⟨b, h1, h2, h3⟩, fun _ => ⟨w, e⟩⟩, Or.inl ⟨w, e⟩⟩
  · refine ⟨⟨fun ⟨w, hw⟩ => (by rw [e] at hw; cases hw), fun ⟨b, h1, h2, h3⟩ => ?_⟩, Or.inr ⟨h', e, ?_⟩⟩
    · have := hb b h1
      simp only [storedDate, h1, h3] at this
      simp at this
      exact absurd h2 (not_lt.2 this)
    · have hc : h'.currentTime = storedDate ae h t := currentTime_append h' l' _ e'
      cases hl : h.L.getLast? with
      | none =>
        left
        rw [List.getLast?_eq_none_iff] at hl
        exact ⟨hl, by rw [hc]; simp [storedDate, hl]⟩
      | some b =>
        right
        exact ⟨b, rfl, by rw [hc]; simp only [storedDate, hl]⟩

/-- **C10** In any reachable history, all the samples are at most `Tmax` older than the
latest one, and a query more than 1E-12 beyond `Tmax` returns 0. -/
theorem history_window (ae : Nat → K → K → Bool) (hae : ∀ n a, ae n a a = true)
    (Tmax : K) (hT : 0 ≤ Tmax) (ops : List (Op K)) :
    let h := run ae Tmax ops
    h.duration ≤ Tmax ∧ (∀ p ∈ h.L, ∀ q ∈ h.L, q.1 - p.1 ≤ Tmax) ∧
    ∀ tau, Tmax + 1 / 10 ^ 12 ≤ tau → value h tau = .ok 0 := by
  intro h
  obtain ⟨hi, hT'⟩ := run_inv ae hae Tmax hT ops
  change Inv h at hi
  change h.Tmax = Tmax at hT'
  have hall : ∀ p ∈ h.L, ∀ q ∈ h.L, q.1 - p.1 ≤ Tmax := by
    intro p hp q hq
    have h1 := hi.oldest_le p hp
    have h2 := hi.window q hq
    rw [hT'] at h2
    linarith
  refine ⟨?_, hall, ?_⟩
  · unfold duration durationOf
    cases h1 : h.L.head? with
    | none => simpa using hT
    | some a =>
      cases h2 : h.L.getLast? with
      | none => simpa using hT
      | some b => exact hall a (List.mem_of_mem_head? h1) b (List.mem_of_getLast? h2)
  · intro tau htau
    have hpos : (0 : K) < 1 / 10 ^ 12 := by positivity
    have h1 : ¬ |tau - h.Tmax| < eps K := by
      rw [hT', abs_of_nonneg (by linarith)]
      unfold eps
      exact not_lt.2 (by linarith)
    simp only [value, if_neg h1]
    rw [if_pos (by rw [hT']; linarith)]

/-- `h[i]` is the sample number `i` from the oldest one, `h[-1-i]` the sample number `i` from the most recent one; any other index is outside of the samples (undefined behaviour). -/
theorem history_index (h : History K) (i : Nat) :
    (∀ hi : i < h.L.length, index h i = .ok h.L[i] ∧ index h (-1 - i) = .ok (h.L[h.L.length - 1 - i]'(by omega))) ∧
      (h.L.length ≤ i → index h i = .error .ub ∧ index h (-1 - i) = .error .ub) := by
  have hn : ¬ ((-1 - i : Int) ≥ 0) := by omega
  have hp : ((i : Int) ≥ 0) := by omega
  refine ⟨fun hi => ?_, fun hi => ?_⟩
  · have h1 : (h.L.length : Int) + (-1 - i) ≥ 0 := by omega
    have h2 : ((h.L.length : Int) + (-1 - i)).toNat = h.L.length - 1 - i := by omega
    rw [index, if_pos hp, index, if_neg hn, if_pos h1, h2, getUB, getUB, Int.toNat_natCast, List.getElem?_eq_getElem hi,
      List.getElem?_eq_getElem (show h.L.length - 1 - i < h.L.length by omega)]
    exact ⟨rfl, rfl⟩
  · have h1 : ¬ ((h.L.length : Int) + (-1 - i) ≥ 0) := by omega
    rw [index, if_pos hp, index, if_neg hn, if_neg h1, getUB, Int.toNat_natCast, List.getElem?_eq_none hi]
    exact ⟨rfl, rfl⟩

/-- After a successful `record(t,v)` in a reachable history, the most recent sample `h[-1]` has the value `v`, at the current date: this is so even when `h(0)` is not `v`. -/
theorem history_last_sample (ae : Nat → K → K → Bool) (hae : ∀ n a, ae n a a = true)
    (Tmax : K) (hT : 0 ≤ Tmax) (ops : List (Op K)) (t v : K) (h' : History K)
    (hok : record ae (run ae Tmax ops) t v = .ok h') : index h' (-1) = .ok (h'.currentTime, v) := by
  obtain ⟨hi, hT'⟩ := run_inv ae hae Tmax hT ops
  rcases record_cases ae hae _ hi (by rw [hT']; exact hT) t v with ⟨b, w, h1, h2, h3, e⟩ | ⟨h2, l', hb, e, e', e3, e4, e5⟩
  · rw [e] at hok; cases hok
  · rw [e] at hok; cases hok
    have hct := currentTime_append h' l' _ e'
    have hlen : 0 < h'.L.length := by rw [e']; simp
    have hlast := ((history_index h' 0).1 hlen).2
    simp only [Int.natCast_zero, sub_zero] at hlast
    rw [hlast, hct]
    congr 1
    simp [e']

/-- **C11, partial** After a successful `record(t,v)` in a reachable history, `h(0) = v`,
provided that the samples already recorded are at the stored date or at least 1E-12 before it,
and that `Tmax` is 0 or at least 1E-12.  Missing: samples closer than 1E-12 (refuted below).
(That the current date is `t` is part of `history_record_outcome`.) -/
theorem history_latest_value_partial (ae : Nat → K → K → Bool) (hae : ∀ n a, ae n a a = true)
    (Tmax : K) (hT : Tmax = 0 ∨ 1 / 10 ^ 12 ≤ Tmax) (ops : List (Op K)) (t v : K) (h' : History K)
    (hok : record ae (run ae Tmax ops) t v = .ok h')
    (hgap : ∀ p ∈ (run ae Tmax ops).L, p.1 = h'.currentTime ∨ p.1 + 1 / 10 ^ 12 ≤ h'.currentTime) :
    value h' 0 = .ok v := by
  have hpos : (0 : K) < 1 / 10 ^ 12 := by positivity
  have hT0 : 0 ≤ Tmax := by rcases hT with h | h <;> linarith
  obtain ⟨hi, hT'⟩ := run_inv ae hae Tmax hT0 ops
  set h := run ae Tmax ops with hh
  rcases record_cases ae hae h hi (hT' ▸ hT0) t v with ⟨b, w, h1, h2, h3, e⟩ | ⟨h2, l', hb, e, e', e3, e4, e5⟩
  · rw [e] at hok; cases hok
  · rw [e] at hok; cases hok
    set s := storedDate ae h t with hs
    have hct : h'.currentTime = s := currentTime_append h' l' _ e'
    obtain ⟨hl, hlast⟩ := getLast_getElem _ _ _ e'
    have hne : h'.L ≠ [] := by rw [e']; simp
    have hTm : h'.Tmax = Tmax := e3.trans hT'
    rw [value_inside h' 0 le_rfl (hTm ▸ hT0) hne]
    · rw [getValue_sample h' e4.sorted 0 l'.length hl (by rw [hct, hlast]; simp), hlast]
      intro hp
      rw [hlast]
      have hlt := e4.sorted.lt hl (i := l'.length - 1) (by omega)
      rw [hlast] at hlt
      have hm : h'.L[l'.length - 1] ∈ l' := by
        have : h'.L[l'.length - 1] = l'[l'.length - 1] := by
          simp only [e']; rw [List.getElem_append_left (by omega)]
        rw [this]; exact List.getElem_mem _
      simp only at hlt ⊢
      rcases e5 _ hm with hx | hx
      · rcases hgap _ hx with hy | hy
        · rw [hct] at hy; exact absurd hy (ne_of_lt hlt)
        · rw [hct] at hy; unfold eps; linarith
      · rw [hT'] at hx
        rcases hT with hT | hT
        · rw [hT] at hx; linarith
        · unfold eps; linarith
    · rw [hTm]
      rcases hT with h | h
      · left; exact h.symm
      · right; unfold eps; linarith

/-- Exact comparison, used in the concrete examples; the dates of the examples are not
within a few ULPs of each other unless they are equal. -/
def aeQ : Nat → ℚ → ℚ → Bool := fun _ a b => decide (a = b)

/-- The hypotheses of C11 are met: four samples, some of which are dropped. -/
example : ∃ h', record aeQ (run aeQ 2 [.record 0 5, .record 1 7, .record 1 8]) 4 9 = .ok h' ∧
    (∀ p ∈ (run aeQ 2 [.record 0 5, .record 1 7, .record 1 8]).L,
      p.1 = h'.currentTime ∨ p.1 + 1 / 10 ^ 12 ≤ h'.currentTime) ∧
    h'.L = [(2, 11), (4, 9)] := by
  refine ⟨{ Tmax := 2, L := [(2, 11), (4, 9)], oldest := 2 }, ?_⟩
  decide +kernel

/-- **C11, refuted** For samples closer than 1E-12 (but not equal), `h(0)` is not the latest
value: after recording 1 at date 0 and 2 at date 1E-13, `h(0)` is 1. -/
theorem history_latest_value_refuted :
    ∃ h', record aeQ (run aeQ 10 [.record 0 1]) (1 / 10 ^ 13) 2 = .ok h' ∧ value h' 0 = .ok 1 := by
  refine ⟨{ Tmax := 10, L := [(0, 1), (1 / 10 ^ 13, 2)], oldest := 0 }, ?_⟩
  decide +kernel

/-- **C12** In a history with strictly increasing dates that spans at most `Tmax`, for
`0 ≤ tau ≤ duration` the query `h(tau)` succeeds.  Up to a shift of less than 1E-12 of the
requested date, it falls on a sample or between two successive samples `a`, `b`; the result
is then the straight line through them or, within 1E-12 of a sample, the value of that
sample.  In all cases it lies between the values of `a` and `b`. -/
theorem history_interpolates (h : History K) (hs : StrictlyIncreasing h.L) (hne : h.L ≠ [])
    (hd : h.duration ≤ h.Tmax) (tau : K) (h0 : 0 ≤ tau) (h1 : tau ≤ h.duration) :
    ∃ y s a b, value h tau = .ok y ∧ |s - (h.currentTime - tau)| < 1 / 10 ^ 12 ∧
      a ∈ h.L ∧ b ∈ h.L ∧ (a = b ∨ Consecutive h.L a b) ∧ a.1 ≤ s ∧ s ≤ b.1 ∧
      ((y = a.2 ∧ |s - a.1| < 1 / 10 ^ 12) ∨ (y = b.2 ∧ |s - b.1| < 1 / 10 ^ 12) ∨
        (a ≠ b ∧ y = line a b s)) ∧
      min a.2 b.2 ≤ y ∧ y ≤ max a.2 b.2 := by
  have hpos : (0 : K) < 1 / 10 ^ 12 := by positivity
  have hlen : 0 < h.L.length := List.length_pos_of_ne_nil hne
  -- the snapped delay
  obtain ⟨tau', hv, hclose, h0'⟩ : ∃ tau', value h tau = getValue h tau' ∧ |tau' - tau| < 1 / 10 ^ 12 ∧ 0 ≤ tau' := by
    by_cases hc : |tau - h.Tmax| < eps K
    · refine ⟨h.Tmax, ?_, by rw [abs_sub_comm]; exact hc, by linarith⟩
      unfold value
      simp only [if_pos hc]
      simp only [gt_iff_lt, lt_irrefl, if_false]
      rw [if_neg (not_lt.2 (by linarith)), if_neg (by simpa using hne)]
    · refine ⟨tau, ?_, by simp, h0⟩
      apply value_inside h tau h0 (h1.trans hd) hne
      right
      rw [abs_sub_comm, abs_of_nonneg (by linarith)] at hc
      exact not_lt.1 hc
  have hfront : (h.L[0]).1 ≤ h.currentTime - tau ∧ h.currentTime = (h.L[h.L.length - 1]).1 := by
    have e1 : h.L.head? = some h.L[0] := by
      rw [List.head?_eq_getElem?, List.getElem?_eq_getElem hlen]
    have e2 : h.L.getLast? = some (h.L[h.L.length - 1]) := by
      rw [List.getLast?_eq_getElem?, List.getElem?_eq_getElem]
    have e3 : h.currentTime = (h.L[h.L.length - 1]).1 := by simp [currentTime, e2]
    refine ⟨?_, e3⟩
    simp only [duration, durationOf, e1, e2] at h1
    rw [e3]; linarith
  obtain ⟨hf, hcur⟩ := hfront
  rw [hv]
  obtain ⟨idx, hi, hsp⟩ := bracket_splits h.L (h.currentTime - tau') hs
  have hidx : idx < h.L.length := by
    by_contra hcon
    have := hsp.2.1 (h.L.length - 1) (by omega) (by omega)
    rw [← hcur] at this
    linarith
  simp only [getValue, hi, bind, Except.bind]
  cases idx with
  | zero =>
    have hge := hsp.2.2 0 hidx le_rfl
    have := abs_lt.1 hclose
    refine ⟨(h.L[0]).2, (h.L[0]).1, h.L[0], h.L[0], interpolate_zero _ hidx _, ?_, List.getElem_mem _,
      List.getElem_mem _, Or.inl rfl, le_rfl, le_rfl, Or.inl ⟨rfl, by simp⟩, by simp, by simp⟩
    rw [abs_lt]
    constructor <;> linarith
  | succ i =>
    have hA := hsp.2.1 i (by omega) (by omega)
    have hB := hsp.2.2 (i + 1) hidx le_rfl
    have hlt := Sorted.lt hs hidx (Nat.lt_succ_self i)
    have hc : |h.currentTime - tau' - (h.currentTime - tau)| < 1 / 10 ^ 12 := by
      have : h.currentTime - tau' - (h.currentTime - tau) = -(tau' - tau) := by ring
      rw [this, abs_neg]; exact hclose
    have hcons : Consecutive h.L h.L[i] h.L[i + 1] :=
      ⟨i, List.getElem?_eq_getElem _, List.getElem?_eq_getElem _⟩
    have hab : h.L[i] ≠ h.L[i + 1] := fun he => by rw [he] at hlt; exact lt_irrefl _ hlt
    refine ⟨_, h.currentTime - tau', h.L[i], h.L[i + 1], interpolate_mid _ _ hidx _, hc, List.getElem_mem _,
      List.getElem_mem _, Or.inr hcons, hA.le, hB, ?_, ?_⟩
    · split_ifs with c1 c2
      · exact Or.inl ⟨rfl, c1⟩
      · exact Or.inr (Or.inl ⟨rfl, c2⟩)
      · refine Or.inr (Or.inr ⟨hab, ?_⟩)
        unfold line; ring
    · split_ifs with c1 c2
      · simp
      · simp
      · set u := (h.currentTime - tau' - (h.L[i]).1) / ((h.L[i + 1]).1 - (h.L[i]).1) with hu
        have hu0 : 0 ≤ u := div_nonneg (by linarith) (by linarith)
        have hu1 : u ≤ 1 := by rw [hu, div_le_one (by linarith)]; linarith
        rcases le_total (h.L[i]).2 (h.L[i + 1]).2 with hle | hle
        · rw [min_eq_left hle, max_eq_right hle]
          constructor <;> nlinarith
        · rw [min_eq_right hle, max_eq_left hle]
          constructor <;> nlinarith

/-- The hypotheses of C12 are met by a history of three samples queried between two of them. -/
example : let h := run aeQ 10 [.record 0 5, .record 1 7, .record 3 9]
    h.L ≠ [] ∧ h.duration ≤ h.Tmax ∧ (1 : ℚ) ≤ h.duration ∧ value h 1 = .ok 8 := by decide +kernel

/-- **C12, exact values at recorded dates**: the query at a recorded date returns the recorded
value when the previous sample is at least 1E-12 older. -/
theorem history_value_at_sample (h : History K) (hs : StrictlyIncreasing h.L) (i : Nat) (hi : i < h.L.length)
    (tau : K) (hd : h.currentTime - tau = (h.L[i]).1) (h0 : 0 ≤ tau)
    (h1 : tau = h.Tmax ∨ 1 / 10 ^ 12 ≤ h.Tmax - tau)
    (hgap : ∀ (_ : 0 < i), 1 / 10 ^ 12 ≤ (h.L[i]).1 - (h.L[i - 1]).1) :
    value h tau = .ok (h.L[i]).2 := by
  have hpos : (0 : K) < 1 / 10 ^ 12 := by positivity
  have hne : h.L ≠ [] := by intro hc; rw [hc] at hi; simp at hi
  rw [value_inside h tau h0 (by rcases h1 with h | h <;> linarith) hne h1]
  exact getValue_sample h hs tau i hi hd hgap

/-- Queries before the first sample return its value. -/
theorem history_before_first_sample (h : History K) (hs : StrictlyIncreasing h.L) (p : K × K) (l : List (K × K))
    (hL : h.L = p :: l) (tau : K) (hd : h.currentTime - tau ≤ p.1) (h0 : 0 ≤ tau)
    (h1 : tau = h.Tmax ∨ 1 / 10 ^ 12 ≤ h.Tmax - tau) : value h tau = .ok p.2 := by
  have hpos : (0 : K) < 1 / 10 ^ 12 := by positivity
  have hne : h.L ≠ [] := by rw [hL]; simp
  have hlen : 0 < h.L.length := List.length_pos_of_ne_nil hne
  have e0 : h.L[0] = p := by simp [hL]
  rw [value_inside h tau h0 (by rcases h1 with h | h <;> linarith) hne h1]
  have hsp : Splits h.L (h.currentTime - tau) 0 := splits_of hs hlen (fun h => by omega) (by rw [e0]; exact hd)
  simp only [getValue, bracket_eq h.L _ hs hsp, bind, Except.bind]
  rw [interpolate_zero _ hlen, e0]

/-- **C13** The search used by all queries terminates without reading out of bounds and
returns the number of recorded dates that are before the requested date, i.e. the index of
the first one that is not. -/
theorem history_bracket (L : List (K × K)) (hs : StrictlyIncreasing L) (t : K) :
    bracket L t = .ok (L.countP (fun p => p.1 < t)) ∧
    (∀ i (h : i < L.length), i < L.countP (fun p => p.1 < t) ↔ L[i].1 < t) := by
  obtain ⟨idx, hi, hsp⟩ := bracket_splits L t hs
  have hc : L.countP (fun p => p.1 < t) = idx := by
    conv_lhs => rw [← List.take_append_drop idx L, List.countP_append]
    have e1 : (L.take idx).countP (fun p => p.1 < t) = (L.take idx).length := by
      rw [List.countP_eq_length]
      intro p hp
      obtain ⟨i, hi', rfl⟩ := List.getElem_of_mem hp
      simp at hi'
      rw [List.getElem_take]
      simpa using hsp.2.1 i hi'.2 hi'.1
    have e2 : (L.drop idx).countP (fun p => p.1 < t) = 0 := by
      rw [List.countP_eq_zero]
      intro p hp
      simpa using splits_drop hsp p hp
    rw [e1, e2]
    simp [hsp.1]
  rw [hc]
  refine ⟨hi, fun i h => ⟨fun hlt => hsp.2.1 i h hlt, fun hlt => ?_⟩⟩
  by_contra hcon
  exact absurd hlt (not_lt.2 (hsp.2.2 i h (by omega)))

example : StrictlyIncreasing ([(0, 5), (1, 7), (3, 9)] : List (ℚ × ℚ)) := by
  simp [StrictlyIncreasing]

end Xdyn.History

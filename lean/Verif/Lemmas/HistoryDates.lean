import Verif.Lemmas.MultiBody
import Verif.Lemmas.History

/-!
The dates of a history do not depend on the recorded values: histories which record at the same dates have the same dates.
-/

namespace Xdyn

open Multi

variable {K : Type} [Field K] [LinearOrder K] [IsStrictOrderedRing K]

namespace History

/-- Two histories with the same dates (and possibly different values). -/
structure SameDates (h h' : History K) : Prop where
  tmax : h.Tmax = h'.Tmax
  oldest : h.oldest = h'.oldest
  dates : h.L.map Prod.fst = h'.L.map Prod.fst

variable {L L' : List (K × K)}

omit [Field K] [LinearOrder K] [IsStrictOrderedRing K] in
theorem getUB_dates (h : L.map Prod.fst = L'.map Prod.fst) (i : Nat) : ERel (fun a b : K × K => a.1 = b.1) (getUB L i) (getUB L' i) := by
  have := congrArg (fun l : List K => l[i]?) h
  simp only [List.getElem?_map] at this
  unfold getUB
  cases h1 : L[i]? <;> cases h2 : L'[i]? <;> rw [h1, h2] at this <;> simp at this
  · exact rfl
  · exact this

omit [Field K] [LinearOrder K] [IsStrictOrderedRing K] in
theorem length_dates (h : L.map Prod.fst = L'.map Prod.fst) : L.length = L'.length := by
  simpa using congrArg List.length h

theorem bracketLoop_dates (h : L.map Prod.fst = L'.map Prod.fst) (t : K) : ∀ (n lo gr : Nat), gr - lo ≤ n → bracketLoop L t lo gr = bracketLoop L' t lo gr := by
  intro n
  induction n with
  | zero =>
    intro lo gr hn
    unfold bracketLoop
    rcases ha : getUB L lo with e | a <;> rcases ha' : getUB L' lo with e' | a' <;> have hr := getUB_dates h lo <;> rw [ha, ha'] at hr
    · cases hr; rfl
    · exact hr.elim
    · exact hr.elim
    · have hr : a.1 = a'.1 := hr
      simp only [bind, Except.bind, pure, Except.pure, hr]
      split
      · rfl
      · rcases hb : getUB L gr with e | b <;> rcases hb' : getUB L' gr with e' | b' <;> have hr2 := getUB_dates h gr <;> rw [hb, hb'] at hr2
        · cases hr2; rfl
        · exact hr2.elim
        · exact hr2.elim
        · have hr2 : b.1 = b'.1 := hr2
          simp only [hr2]
          split
          · rfl
          · rw [dif_pos (by omega), dif_pos (by omega)]
  | succ n ih =>
    intro lo gr hn
    unfold bracketLoop
    rcases ha : getUB L lo with e | a <;> rcases ha' : getUB L' lo with e' | a' <;> have hr := getUB_dates h lo <;> rw [ha, ha'] at hr
    · cases hr; rfl
    · exact hr.elim
    · exact hr.elim
    · have hr : a.1 = a'.1 := hr
      simp only [bind, Except.bind, pure, Except.pure, hr]
      split
      · rfl
      · rcases hb : getUB L gr with e | b <;> rcases hb' : getUB L' gr with e' | b' <;> have hr2 := getUB_dates h gr <;> rw [hb, hb'] at hr2
        · cases hr2; rfl
        · exact hr2.elim
        · exact hr2.elim
        · have hr2 : b.1 = b'.1 := hr2
          simp only [hr2]
          split
          · rfl
          · split
            · rfl
            · rcases hm : getUB L ((lo + gr) / 2) with e | m <;> rcases hm' : getUB L' ((lo + gr) / 2) with e' | m' <;>
                have hr3 := getUB_dates h ((lo + gr) / 2) <;> rw [hm, hm'] at hr3
              · cases hr3; rfl
              · exact hr3.elim
              · exact hr3.elim
              · have hr3 : m.1 = m'.1 := hr3
                simp only [hr3]
                rw [ih lo ((lo + gr) / 2) (by omega), ih ((lo + gr) / 2) gr (by omega)]

omit [Field K] [LinearOrder K] [IsStrictOrderedRing K] in
theorem head_dates (h : L.map Prod.fst = L'.map Prod.fst) : L.head?.map Prod.fst = L'.head?.map Prod.fst := by
  rw [← List.head?_map, h, List.head?_map]

omit [Field K] [LinearOrder K] [IsStrictOrderedRing K] in
theorem getLast_dates (h : L.map Prod.fst = L'.map Prod.fst) : L.getLast?.map Prod.fst = L'.getLast?.map Prod.fst := by
  rw [← List.getLast?_map, h, List.getLast?_map]

theorem bracket_dates (h : L.map Prod.fst = L'.map Prod.fst) (t : K) : bracket L t = bracket L' t := by
  have h1 := head_dates h
  have h2 := getLast_dates h
  unfold bracket
  cases a : L.head? <;> cases a' : L'.head? <;> rw [a, a'] at h1 <;> simp at h1
  all_goals (try rfl)
  cases b : L.getLast? <;> cases b' : L'.getLast? <;> rw [b, b'] at h2 <;> simp at h2
  all_goals (try rfl)
  simp only [h1, h2, length_dates h, bracketLoop_dates h t _ _ _ le_rfl]

theorem currentTime_dates {h h' : History K} (hs : SameDates h h') : h.currentTime = h'.currentTime := by
  have h2 := getLast_dates hs.dates
  unfold currentTime
  cases b : h.L.getLast? <;> cases b' : h'.L.getLast? <;> rw [b, b'] at h2 <;> simp at h2
  · exact hs.oldest
  · exact h2

theorem interpolate_one_dates (h : L.map Prod.fst = L'.map Prod.fst) (t : K) : ERel (fun _ _ : K => True) (interpolate L 1 t) (interpolate L' 1 t) := by
  have hl := length_dates h
  cases L with
  | nil =>
    cases L' with
    | nil => exact ERel.refl (fun _ => trivial) _
    | cons => simp at hl
  | cons a L =>
    cases L' with
    | nil => simp at hl
    | cons a' L' =>
      obtain ⟨v, hv⟩ := interpolate_ok (a :: L) (by simp) 1 t
      obtain ⟨v', hv'⟩ := interpolate_ok (a' :: L') (by simp) 1 t
      rw [hv, hv']
      trivial

theorem updateOldest_dates {h h' : History K} (hs : SameDates h h') (t : K) : SameDates (updateOldest h t) (updateOldest h' t) := by
  have he : h.L.isEmpty = h'.L.isEmpty := by
    have := length_dates hs.dates
    rw [Bool.eq_iff_iff, List.isEmpty_iff_length_eq_zero, List.isEmpty_iff_length_eq_zero, this]
  refine ⟨hs.tmax, ?_, hs.dates⟩
  simp only [updateOldest, he, hs.oldest]

theorem addValue_dates (ae : Nat → K → K → Bool) {h h' : History K} (hs : SameDates h h') (t v v' : K) : ERel SameDates (addValue ae h t v) (addValue ae h' t v') := by
  unfold addValue
  rw [bracket_dates hs.dates t, length_dates hs.dates]
  refine ERel.bind (R := Eq) (ERel.of_eq rfl) ?_
  rintro idx _ rfl
  have hins : SameDates ({ h with L := h.L.take idx ++ (t, v) :: h.L.drop idx } : History K) { h' with L := h'.L.take idx ++ (t, v') :: h'.L.drop idx } := by
    refine ⟨hs.tmax, hs.oldest, ?_⟩
    simp only [List.map_append, List.map_cons, List.map_take, List.map_drop, hs.dates]
  by_cases hi : idx ≠ h'.L.length
  · simp only [if_pos hi]
    refine ERel.bind (getUB_dates hs.dates idx) ?_
    intro p p' hp
    rw [hp]
    split
    · refine ⟨hs.tmax, hs.oldest, ?_⟩
      simp only [List.map_set, hs.dates]
    · exact hins
  · simp only [if_neg hi]
    exact hins

theorem shift_dates (ae : Nat → K → K → Bool) {h h' : History K} (hs : SameDates h h') : ERel SameDates (shift ae h) (shift ae h') := by
  unfold shift
  rw [currentTime_dates hs, hs.oldest, hs.tmax]
  split
  · refine ERel.bind (interpolate_one_dates hs.dates _) ?_
    intro v v' _
    rw [bracket_dates hs.dates]
    refine ERel.bind (R := Eq) (ERel.of_eq rfl) ?_
    rintro idx _ rfl
    have hd : (h.L.drop idx).map Prod.fst = (h'.L.drop idx).map Prod.fst := by rw [List.map_drop, hs.dates, List.map_drop]
    refine ERel.bind (getUB_dates hd 0) ?_
    intro f f' hf
    rw [hf]
    split
    · exact ⟨rfl, rfl, hd⟩
    · exact ⟨rfl, rfl, by simp only [List.map_cons, hd]⟩
  · exact hs

/-- Recording at the same date keeps the same dates, whatever the values, and fails for both or for none. -/
theorem record_dates (ae : Nat → K → K → Bool) {h h' : History K} (hs : SameDates h h') (t v v' : K) : ERel SameDates (record ae h t v) (record ae h' t v') := by
  have h2 := getLast_dates hs.dates
  unfold record
  cases b : h.L.getLast? <;> cases b' : h'.L.getLast? <;> rw [b, b'] at h2 <;> simp at h2
  · exact ERel.bind (addValue_dates ae (updateOldest_dates hs t) t v v') (fun _ _ hh => shift_dates ae hh)
  · rename_i p p'
    simp only [h2]
    generalize (if ae 4 t p'.1 = true then p'.1 else t) = d
    by_cases hd : d < p'.1
    · simp only [if_pos hd]; rfl
    · simp only [if_neg hd]
      exact ERel.bind (addValue_dates ae (updateOldest_dates hs _) _ v v') (fun _ _ hh => shift_dates ae hh)

theorem getDates_same {h h' : History K} (hs : SameDates h h') (tmax : K) : h.getDates tmax = h'.getDates tmax := by
  have key : ∀ h : History K, h.getDates tmax = if tmax = 0 then [h.currentTime] else (h.L.map Prod.fst).filter (fun d => tmax ≥ h.currentTime - d) := by
    intro h
    unfold getDates
    rw [List.filter_map]
    rfl
  rw [key, key, currentTime_dates hs, hs.dates]

end History

end Xdyn

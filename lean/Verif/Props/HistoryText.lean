import Verif.Model.HistoryText
import Mathlib.Data.Rat.Defs
import Mathlib.Algebra.Field.Rat
import Mathlib.Algebra.Order.Ring.Rat

/-
C212: the text of a history, and its current date.
-/

namespace Xdyn.History

section
variable {K : Type}

theorem loop_eq (fmt : K → List Char) (L : List (K × K)) : ∀ n, n ≤ L.length → ∀ os : List Char,
    (List.range n).foldlM (fun os i => do
      let p ← atThrow L i
      return os ++ (sampleText fmt p ++ [',', ' '])) os = (.ok (os ++ (L.take n).flatMap fun p => sampleText fmt p ++ [',', ' ']) : Except Err (List Char))
  | 0, _, os => by rw [List.take_zero, List.flatMap_nil, List.append_nil]; rfl
  | n + 1, hn, os => by
    rw [List.range_succ, List.foldlM_append, loop_eq fmt L n (by omega) os]
    have h : L[n]? = some L[n] := List.getElem?_eq_getElem (by omega)
    simp only [bind, Except.bind, List.foldlM_cons, List.foldlM_nil, atThrow, h, pure, Except.pure]
    rw [List.take_add_one, h, List.flatMap_append]
    simp only [Option.toList, List.flatMap_cons, List.flatMap_nil, List.append_nil, List.append_assoc]

theorem size_minus_one_of_empty : ∃ m, sizeMinusOne 0 = m + 1 := ⟨18446744073709551614, by decide +kernel⟩

theorem loop_nil (fmt : K → List Char) (m : Nat) :
    (List.range (m + 1)).foldlM (fun os i => do
      let p ← atThrow ([] : List (K × K)) i
      return os ++ (sampleText fmt p ++ [',', ' '])) ['['] = (.error (.throw "std::out_of_range") : Except Err (List Char)) := by
  rw [List.range_succ_eq_map, List.foldlM_cons]
  rfl

theorem flatMap_intercalate (s : List Char) : ∀ (l : List (List Char)) (a : List Char), l.flatMap (fun x => x ++ s) ++ a = s.intercalate (l ++ [a])
  | [], a => by simp [List.intercalate]
  | [x], a => by simp [List.intercalate, List.intersperse]
  | x :: y :: l, a => by
    have ih := flatMap_intercalate s (y :: l) a
    rw [List.flatMap_cons, List.append_assoc, List.append_assoc, ih]
    simp [List.intercalate, List.intersperse]

/-- **C212** (what holds) The text of a history that has samples: the samples `(date,value)`, from the oldest one to the most recent one, separated by a comma and a space, between brackets. Missing: a history
without samples, `empty_history_not_printed`. -/
theorem history_text_partial (fmt : K → List Char) (h : History K) (hne : h.L ≠ []) (hlen : h.L.length < 2 ^ 64) :
    h.print fmt = .ok ('[' :: ([',', ' '].intercalate (h.L.map fun p => '(' :: (fmt p.1 ++ ',' :: (fmt p.2 ++ [')']))) ++ [']'])) := by
  have hpos : 0 < h.L.length := List.length_pos_iff.mpr hne
  have hs : sizeMinusOne h.L.length = h.L.length - 1 := by
    unfold sizeMinusOne
    rw [show h.L.length + (2 ^ 64 - 1) = (h.L.length - 1) + 2 ^ 64 by omega, Nat.add_mod_right, Nat.mod_eq_of_lt (by omega)]
  have hlast : h.L.getLast? = some (h.L.getLast hne) := List.getLast?_eq_some_getLast hne
  have hloop : printLoop fmt h.L = .ok (['['] ++ (h.L.take (h.L.length - 1)).flatMap fun p => sampleText fmt p ++ [',', ' ']) := by
    rw [printLoop, hs]
    exact loop_eq fmt h.L _ (by omega) _
  have htake : h.L.take (h.L.length - 1) = h.L.dropLast := List.dropLast_eq_take.symm
  have key := flatMap_intercalate [',', ' '] (h.L.dropLast.map (sampleText fmt)) (sampleText fmt (h.L.getLast hne))
  rw [List.flatMap_map] at key
  have hsplit : h.L.dropLast.map (sampleText fmt) ++ [sampleText fmt (h.L.getLast hne)] = h.L.map (sampleText fmt) := by
    conv_rhs => rw [← List.dropLast_concat_getLast hne]
    simp
  rw [hsplit] at key
  rw [print, hloop]
  simp only [bind, Except.bind, hlast, pure, Except.pure, htake]
  rw [List.cons_append, List.nil_append, List.cons_append, List.cons_append, key]
  rfl

/-- C212 (refutation): a history without samples cannot be printed: `size() - 1` is then the greatest number that there is, and the first sample does not exist. -/
theorem empty_history_not_printed (fmt : K → List Char) (h : History K) (he : h.L = []) : h.print fmt = .error (.throw "std::out_of_range") := by
  obtain ⟨m, hs⟩ := size_minus_one_of_empty
  have hl : printLoop fmt ([] : List (K × K)) = .error (.throw "std::out_of_range") := by
    rw [printLoop, List.length_nil, hs]
    exact loop_nil fmt m
  unfold print
  rw [he, hl]
  rfl

end

section
variable {K : Type} [Field K]

/-- **C212** The current date of a history is the one of its last sample; without samples it is zero, whichever way the history was made. -/
theorem current_date (h : History K) (T : K) :
    (∀ p, h.L.getLast? = some p → h.currentTime = p.1) ∧
    (new T : History K).currentTime = 0 ∧ (ofContainer [] : History K).currentTime = 0 ∧ h.reset.currentTime = 0 := by
  refine ⟨?_, ?_, ?_, ?_⟩
  · intro p hp
    simp [currentTime, hp]
  · simp [currentTime, new]
  · simp [currentTime, ofContainer]
  · simp [currentTime, reset]

end

/-- Two samples. -/
example : (ofContainer [(1, 5), (2, 7)] : History ℚ).print (fun v => (toString v.num).toList) = .ok "[(1,5), (2,7)]".toList := by
  rw [history_text_partial _ _ (by simp [ofContainer]) (by simp [ofContainer])]
  decide +kernel

end Xdyn.History

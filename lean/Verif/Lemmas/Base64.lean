import Verif.Model.Base64
import Mathlib.Data.List.Basic

namespace Xdyn.Base64

theorem and_fc : ∀ a : Byte, (a.val &&& 0xfc) >>> 2 = a.val / 4 := by decide +kernel
theorem and_03 : ∀ a : Byte, (a.val &&& 0x03) <<< 4 = a.val % 4 * 16 := by decide +kernel
theorem and_f0 : ∀ a : Byte, (a.val &&& 0xf0) >>> 4 = a.val / 16 := by decide +kernel
theorem and_0f : ∀ a : Byte, (a.val &&& 0x0f) <<< 2 = a.val % 16 * 4 := by decide +kernel
theorem and_c0 : ∀ a : Byte, (a.val &&& 0xc0) >>> 6 = a.val / 64 := by decide +kernel
theorem and_3f : ∀ a : Byte, (a.val &&& 0x3f) = a.val % 64 := by decide +kernel
theorem shl_2 : ∀ a : Byte, a.val <<< 2 = a.val * 4 := by decide +kernel
theorem and_30 : ∀ a : Byte, (a.val &&& 0x30) >>> 4 = a.val / 16 % 4 := by decide +kernel
theorem and_0f' : ∀ a : Byte, (a.val &&& 0xf) <<< 4 = a.val % 16 * 16 := by decide +kernel
theorem and_3c : ∀ a : Byte, (a.val &&& 0x3c) >>> 2 = a.val / 4 % 16 := by decide +kernel
theorem and_03' : ∀ a : Byte, (a.val &&& 0x3) <<< 6 = a.val % 4 * 64 := by decide +kernel

theorem words_eq (a b c : Byte) : words a b c =
    [toByte (a.val / 4), toByte (a.val % 4 * 16 + b.val / 16), toByte (b.val % 16 * 4 + c.val / 64),
     toByte (c.val % 64)] := by
  simp only [words, and_fc, and_03, and_f0, and_0f, and_c0, and_3f]

theorem bytesOf_eq (a b c d : Byte) : bytesOf a b c d =
    [toByte (a.val * 4 + b.val / 16 % 4), toByte (b.val % 16 * 16 + c.val / 4 % 16),
     toByte (c.val % 4 * 64 + d.val)] := by
  simp only [bytesOf, shl_2, and_30, and_0f', and_3c, and_03']

/-- The `k`-th character of the alphabet (total version used in the proofs only). -/
def ch (k : Byte) : Byte := chars.getD k.val 0

theorem find_ch : ∀ k : Byte, k.val < 64 → find (ch k) = k := by decide +kernel
theorem ch_ok : ∀ k : Byte, k.val < 64 → chars[k.val]? = some (ch k) := by decide +kernel
theorem ch_valid : ∀ k : Byte, k.val < 64 → (ch k).val ≠ 61 ∧ isBase64 (ch k) = true := by decide +kernel

theorem words_lt (a b c : Byte) : ∀ w ∈ words a b c, w.val < 64 := by
  have := a.isLt; have := b.isLt; have := c.isLt
  rw [words_eq]
  intro w hw
  simp only [List.mem_cons, List.not_mem_nil, or_false] at hw
  rcases hw with rfl | rfl | rfl | rfl <;> simp only [toByte] <;> omega

theorem emit_eq (ws : List Byte) (h : ∀ w ∈ ws, w.val < 64) : emit ws = some (ws.map ch) := by
  induction ws with
  | nil => rfl
  | cons a l ih =>
    have ih' := ih (fun w hw => h w (by simp [hw]))
    unfold emit at ih' ⊢
    rw [List.mapM_cons, ih', ch_ok a (h a (by simp))]; rfl

/-- Text produced for a byte list, by groups of three (used in the proofs only). -/
def groups : List Byte → List Byte
  | a :: b :: c :: rest => (words a b c).map ch ++ groups rest
  | [] => []
  | [a] => ((words a 0 0).take 2).map ch ++ [61, 61]
  | [a, b] => ((words a b 0).take 3).map ch ++ [61]

theorem encLoop_three (a b c : Byte) (rest ret : List Byte) :
    encLoop (a :: b :: c :: rest) [] ret = encLoop rest [] (ret ++ (words a b c).map ch) := by
  simp [encLoop, emit_eq _ (words_lt a b c)]

theorem encode_eq_aux (l : List Byte) : ∀ ret, (do
    let (p, ret) ← encLoop l [] ret
    if p.length ≠ 0 then
      let ws := words (padded p 0) (padded p 1) (padded p 2)
      let e ← emit (ws.take (p.length + 1))
      return ret ++ e ++ List.replicate (3 - p.length) 61
    else return ret : Option (List Byte)) = some (ret ++ groups l) := by
  induction l using groups.induct with
  | case1 a b c rest ih => intro ret; rw [encLoop_three, ih]; simp [groups]
  | case2 => intro ret; simp [encLoop, groups]
  | case3 a =>
    intro ret
    have h : ∀ w ∈ (words a 0 0).take 2, w.val < 64 := fun w hw => words_lt a 0 0 w (List.mem_of_mem_take hw)
    have := emit_eq _ h
    simp [encLoop, groups, padded, this, List.replicate]
  | case4 a b =>
    intro ret
    have h : ∀ w ∈ (words a b 0).take 3, w.val < 64 := fun w hw => words_lt a b 0 w (List.mem_of_mem_take hw)
    have := emit_eq _ h
    simp [encLoop, groups, padded, this, List.replicate]

theorem encode_eq (l : List Byte) : encode l = some (groups l) := by
  have := encode_eq_aux l []
  simpa [encode] using this

theorem decLoop_four (a b c d : Byte) (ha : a.val < 64) (hb : b.val < 64) (hc : c.val < 64)
    (hd : d.val < 64) (rest ret : List Byte) :
    decLoop (ch a :: ch b :: ch c :: ch d :: rest) [] ret = decLoop rest [] (ret ++ bytesOf a b c d) := by
  simp only [decLoop, ch_valid a ha, ch_valid b hb, ch_valid c hc, ch_valid d hd, find_ch a ha,
    find_ch b hb, find_ch c hc, find_ch d hd, List.nil_append, List.cons_append, ne_eq,
    not_false_eq_true, and_self, if_true]

theorem toByte_val (x : Nat) : (toByte x).val = x % 256 := rfl

theorem bytesOf_words (a b c : Byte) : ∃ w0 w1 w2 w3, words a b c = [w0, w1, w2, w3] ∧
    bytesOf w0 w1 w2 w3 = [a, b, c] := by
  refine ⟨_, _, _, _, words_eq a b c, ?_⟩
  have := a.isLt; have := b.isLt; have := c.isLt
  rw [bytesOf_eq]
  simp only [List.cons.injEq, Fin.ext_iff, toByte_val, and_true]
  omega

def finish (r : List Byte × List Byte) : List Byte :=
  if r.1.length ≠ 0 then
    r.2 ++ (bytesOf (find (padded r.1 0)) (find (padded r.1 1)) (find (padded r.1 2))
      (find (padded r.1 3))).take (r.1.length - 1)
  else r.2

theorem stop_61 : ¬ ((61 : Byte).val ≠ 61 ∧ isBase64 61 = true) := by decide

theorem finish_two (a b : Byte) (ha : a.val < 64) (hb : b.val < 64) (ret : List Byte) :
    finish (decLoop [ch a, ch b, 61, 61] [] ret) = ret ++ [toByte (a.val * 4 + b.val / 16 % 4)] := by
  simp only [decLoop, stop_61, if_false, ch_valid a ha, ch_valid b hb, List.nil_append, List.cons_append, ne_eq,
    not_false_eq_true, and_self, if_true]
  simp [finish, padded, find_ch a ha, find_ch b hb, bytesOf_eq]

theorem finish_three (a b c : Byte) (ha : a.val < 64) (hb : b.val < 64) (hc : c.val < 64) (ret : List Byte) :
    finish (decLoop [ch a, ch b, ch c, 61] [] ret) = ret ++ [toByte (a.val * 4 + b.val / 16 % 4),
      toByte (b.val % 16 * 16 + c.val / 4 % 16)] := by
  simp only [decLoop, stop_61, if_false, ch_valid a ha, ch_valid b hb, ch_valid c hc, List.nil_append, List.cons_append, ne_eq,
    not_false_eq_true, and_self, if_true]
  simp [finish, padded, find_ch a ha, find_ch b hb, find_ch c hc, bytesOf_eq]

theorem decode_groups (l : List Byte) : ∀ ret, finish (decLoop (groups l) [] ret) = ret ++ l := by
  induction l using groups.induct with
  | case1 a b c rest ih =>
    intro ret
    obtain ⟨w0, w1, w2, w3, h, hb⟩ := bytesOf_words a b c
    have hl := words_lt a b c
    rw [h] at hl
    simp only [groups, h, List.map_cons, List.map_nil, List.cons_append, List.nil_append]
    rw [decLoop_four _ _ _ _ (hl _ (by simp)) (hl _ (by simp)) (hl _ (by simp)) (hl _ (by simp)),
      ih, hb]
    simp
  | case2 => intro ret; simp [groups, decLoop, finish]
  | case3 a =>
    intro ret
    have hl := words_lt a 0 0
    rw [words_eq] at hl
    simp only [List.mem_cons, forall_eq_or_imp] at hl
    obtain ⟨h0, h1, -⟩ := hl
    have := a.isLt
    simp only [groups, words_eq, List.take, List.map_cons, List.map_nil, List.cons_append, List.nil_append]
    rw [finish_two _ _ h0 h1]
    simp only [List.append_cancel_left_eq, List.cons.injEq, Fin.ext_iff, toByte_val, and_true]
    have : (0 : Byte).val = 0 := rfl
    omega
  | case4 a b =>
    intro ret
    have hl := words_lt a b 0
    rw [words_eq] at hl
    simp only [List.mem_cons, forall_eq_or_imp] at hl
    obtain ⟨h0, h1, h2, -⟩ := hl
    have := a.isLt; have := b.isLt
    simp only [groups, words_eq, List.take, List.map_cons, List.map_nil, List.cons_append, List.nil_append]
    rw [finish_three _ _ _ h0 h1 h2]
    simp only [List.append_cancel_left_eq, List.cons.injEq, Fin.ext_iff, toByte_val, and_true]
    have : (0 : Byte).val = 0 := rfl
    omega

theorem groups_shape (l : List Byte) : ∃ body, groups l = body ++ List.replicate ((3 - l.length % 3) % 3) 61 ∧
    (groups l).length = 4 * ((l.length + 2) / 3) ∧ ∀ c ∈ body, isBase64 c = true := by
  induction l using groups.induct with
  | case1 a b c rest ih =>
    obtain ⟨body, h, hl, hb⟩ := ih
    refine ⟨(words a b c).map ch ++ body, ?_, ?_, ?_⟩
    · simp only [groups, List.length_cons, h, List.append_assoc]
      congr 4; omega
    · simp only [groups, List.length_append, List.length_map, hl, List.length_cons, words_eq,
        List.length_nil]; omega
    · intro x hx
      rcases List.mem_append.1 hx with hx | hx
      · obtain ⟨w, hw, rfl⟩ := List.mem_map.1 hx
        exact (ch_valid w (words_lt a b c w hw)).2
      · exact hb x hx
  | case2 => exact ⟨[], by simp [groups]⟩
  | case3 a =>
    refine ⟨((words a 0 0).take 2).map ch, by simp [groups, List.replicate], by simp [groups, words], ?_⟩
    intro x hx
    obtain ⟨w, hw, rfl⟩ := List.mem_map.1 hx
    exact (ch_valid w (words_lt a 0 0 w (List.mem_of_mem_take hw))).2
  | case4 a b =>
    refine ⟨((words a b 0).take 3).map ch, by simp [groups, List.replicate], by simp [groups, words], ?_⟩
    intro x hx
    obtain ⟨w, hw, rfl⟩ := List.mem_map.1 hx
    exact (ch_valid w (words_lt a b 0 w (List.mem_of_mem_take hw))).2

end Xdyn.Base64

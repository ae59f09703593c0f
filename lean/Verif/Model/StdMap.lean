import Mathlib.Order.Defs.LinearOrder
import Mathlib.Order.Basic
import Mathlib.Tactic.Tauto

/-
`std::map<Key, Value>` as the list of its (key, value) pairs in the order in which the C++
code iterates on it: increasing keys.  (`std::map` is a C++ standard library container:
only `operator[]` used to assign, `find` and the iteration are modelled.)
-/

namespace Xdyn

abbrev StdMap (κ ν : Type) := List (κ × ν)

namespace StdMap

variable {κ ν : Type} [LinearOrder κ]

/-- `m[k] = v`. -/
def set : StdMap κ ν → κ → ν → StdMap κ ν
  | [], k, v => [(k, v)]
  | (a, b) :: m, k, v =>
    if k < a then (k, v) :: (a, b) :: m
    else if k = a then (k, v) :: m
    else (a, b) :: set m k v

/-- `m.find(k)`. -/
def find : StdMap κ ν → κ → Option ν
  | [], _ => none
  | (a, b) :: m, k => if k = a then some b else find m k

/-- Keys, in the order of the iteration. -/
def keys (m : StdMap κ ν) : List κ := m.map Prod.fst

/-- Class invariant of `std::map`: strictly increasing keys. -/
def Sorted (m : StdMap κ ν) : Prop := (keys m).Pairwise (· < ·)

theorem find_set (m : StdMap κ ν) (k : κ) (v : ν) (k' : κ) (hm : Sorted m) :
    find (set m k v) k' = if k' = k then some v else find m k' := by
  induction m with
  | nil => simp [set, find]
  | cons p m ih =>
    obtain ⟨a, b⟩ := p
    have hm' : Sorted m := (List.pairwise_cons.mp hm).2
    have ih := ih hm'
    unfold set
    by_cases h1 : k < a
    · rw [if_pos h1]; simp only [find]
    · rw [if_neg h1]
      by_cases h2 : k = a
      · rw [if_pos h2]; subst h2
        simp only [find]
        by_cases h3 : k' = k <;> simp [h3]
      · rw [if_neg h2]
        simp only [find, ih]
        by_cases h3 : k' = k
        · subst h3; simp [h2]
        · simp [h3]

theorem mem_keys_set (m : StdMap κ ν) (k : κ) (v : ν) (k' : κ) :
    k' ∈ keys (set m k v) ↔ k' = k ∨ k' ∈ keys m := by
  induction m with
  | nil => simp [set, keys]
  | cons p m ih =>
    obtain ⟨a, b⟩ := p
    unfold set
    split
    · simp [keys]
    · split
      · rename_i h; subst h; simp [keys]
      · simp only [keys, List.map_cons, List.mem_cons] at ih ⊢
        rw [ih]; tauto

theorem sorted_set (m : StdMap κ ν) (k : κ) (v : ν) (hm : Sorted m) : Sorted (set m k v) := by
  induction m with
  | nil => simp [set, Sorted, keys]
  | cons p m ih =>
    obtain ⟨a, b⟩ := p
    have hm2 : (∀ x ∈ keys m, a < x) ∧ Sorted m := List.pairwise_cons.mp hm
    unfold set
    split
    · rename_i h
      refine List.pairwise_cons.mpr ⟨?_, hm⟩
      intro x hx
      rcases List.mem_cons.mp hx with hx | hx
      · subst hx; exact h
      · exact lt_trans h (hm2.1 x hx)
    · split
      · rename_i h
        subst h
        exact List.pairwise_cons.mpr ⟨hm2.1, hm2.2⟩
      · rename_i h1 h2
        refine List.pairwise_cons.mpr ⟨?_, ih hm2.2⟩
        intro x hx
        rcases (mem_keys_set m k v x).mp hx with hx | hx
        · subst hx; exact lt_of_le_of_ne (not_lt.mp h1) (Ne.symm h2)
        · exact hm2.1 x hx

theorem find_isSome (m : StdMap κ ν) (k : κ) : (find m k).isSome ↔ k ∈ keys m := by
  induction m with
  | nil => simp [find, keys]
  | cons p m ih =>
    obtain ⟨a, b⟩ := p
    simp only [find, keys, List.map_cons, List.mem_cons] at ih ⊢
    by_cases h : k = a
    · simp [h]
    · simp [h, ih]

theorem find_mem {m : StdMap κ ν} {k : κ} {v : ν} (h : find m k = some v) : (k, v) ∈ m := by
  induction m with
  | nil => simp [find] at h
  | cons p m ih =>
    obtain ⟨a, b⟩ := p
    simp only [find] at h
    split at h
    · rename_i hk; cases h; subst hk; exact List.mem_cons_self
    · exact List.mem_cons_of_mem _ (ih h)

theorem find_of_mem {m : StdMap κ ν} {k : κ} {v : ν} (hm : Sorted m) (h : (k, v) ∈ m) : find m k = some v := by
  induction m with
  | nil => simp at h
  | cons p m ih =>
    obtain ⟨a, b⟩ := p
    have hm2 : (∀ x ∈ keys m, a < x) ∧ Sorted m := List.pairwise_cons.mp hm
    rcases List.mem_cons.mp h with h | h
    · cases h; simp [find]
    · have := hm2.1 k (List.mem_map.mpr ⟨_, h, rfl⟩)
      simp only [find, if_neg (ne_of_gt this)]
      exact ih hm2.2 h

theorem sorted_nodup {m : StdMap κ ν} (hm : Sorted m) : (keys m).Nodup :=
  List.Pairwise.imp (fun h => ne_of_lt h) hm

/-- Two sorted maps with the same content are equal. -/
theorem ext_of_find {m m' : StdMap κ ν} (hm : Sorted m) (hm' : Sorted m')
    (h : ∀ k, find m k = find m' k) : m = m' := by
  induction m generalizing m' with
  | nil =>
    cases m' with
    | nil => rfl
    | cons p m' =>
      have := h p.1
      simp [find] at this
  | cons p m ih =>
    obtain ⟨a, b⟩ := p
    have hs : (∀ x ∈ keys m, a < x) ∧ Sorted m := List.pairwise_cons.mp hm
    cases m' with
    | nil => have := h a; simp [find] at this
    | cons p' m' =>
      obtain ⟨a', b'⟩ := p'
      have hs' : (∀ x ∈ keys m', a' < x) ∧ Sorted m' := List.pairwise_cons.mp hm'
      have haa : a = a' := by
        have h1 : a ∈ keys ((a', b') :: m') := by
          rw [← find_isSome, ← h]; simp [find]
        have h2 : a' ∈ keys ((a, b) :: m) := by
          rw [← find_isSome, h]; simp [find]
        rcases List.mem_cons.mp h1 with h1 | h1
        · exact h1
        · rcases List.mem_cons.mp h2 with h2 | h2
          · exact h2.symm
          · exact absurd (hs.1 _ h2) (not_lt.mpr (le_of_lt (hs'.1 _ h1)))
      subst haa
      have hb : b = b' := by have := h a; simpa [find] using this
      subst hb
      congr 1
      refine ih hs.2 hs'.2 fun k => ?_
      have := h k
      by_cases hk : k = a
      · subst hk
        have n1 : find m k = none := by
          cases hf : find m k with
          | none => rfl
          | some v => exact absurd (hs.1 k ((find_isSome m k).mp (by simp [hf]))) (lt_irrefl _)
        have n2 : find m' k = none := by
          cases hf : find m' k with
          | none => rfl
          | some v => exact absurd (hs'.1 k ((find_isSome m' k).mp (by simp [hf]))) (lt_irrefl _)
        rw [n1, n2]
      · simpa [find, hk] using this

end StdMap
end Xdyn

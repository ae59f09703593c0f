/-
C101: blank lines and comments in text STL files.
-/
import Verif.Props.StlAscii

namespace Xdyn.StlAscii

/-- A line of comments (first visible character `#`, `!` or `$`) or of spaces, of at most 255 characters. -/
def IsComment (l : Text) : Prop :=
  (∀ c ∈ l, c ≠ '\n' ∧ c ≠ '\x00') ∧ l.length ≤ 255 ∧
    ((∀ c ∈ l, c = ' ') ∨ ∃ n c r, l = List.replicate n ' ' ++ c :: r ∧ (c = '#' ∨ c = '!' ∨ c = '$'))

/-- What a text file contains between its first and last lines: comments and facets, in any order. -/
inductive Item (K : Type) where
  | comment (l : Text)
  | facet (f : List (Vertex K))

/-- The text of an item. -/
def Item.text {K : Type} (print : K → Text) : Item K → Text
  | .comment l => l ++ ['\n']
  | .facet f => writeFacet print f

/-- The facets, without the comments. -/
def facetsOf {K : Type} (l : List (Item K)) : TextMesh K := l.filterMap (fun i => match i with | .comment _ => none | .facet f => some f)

section
variable {K : Type} {print : K → Text} {scan : Text → Option (K × Text)}

theorem dropWhile_space (n : Nat) (r : Text) : (List.replicate n ' ' ++ r).dropWhile (fun c => c == ' ') = r.dropWhile (fun c => c == ' ') := by
  induction n with
  | zero => rfl
  | succ n ih => simpa [List.replicate_succ] using ih

/-- A comment takes one turn and changes nothing but the position in the file. -/
theorem turn_comment (st : Loop K) (l r : Text) (hl : IsComment l) :
    turn scan { st with s := fresh (l ++ '\n' :: r) } = .ok { st with s := fresh r } := by
  obtain ⟨h1, h2, h3⟩ := hl
  unfold turn
  simp only []
  rw [getLine_line l r h1 h2]
  simp only []
  rcases h3 with h3 | ⟨n, c, t, rfl, hc⟩
  · have : l.dropWhile (fun c => c == ' ') = [] := by
      have : ∀ (l : Text), (∀ c ∈ l, c = ' ') → l.dropWhile (fun c => c == ' ') = [] := by
        intro l
        induction l with
        | nil => simp
        | cons a l ih =>
          intro h
          rw [List.dropWhile_cons, h a (by simp)]
          exact ih (fun c hc => h c (by simp [hc]))
      exact this l h3
    rw [this]
  · have hne : (c == ' ') = false := by
      rcases hc with rfl | rfl | rfl <;> decide
    have : (List.replicate n ' ' ++ c :: t).dropWhile (fun c => c == ' ') = c :: t := by
      rw [dropWhile_space, List.dropWhile_cons, hne]
      rfl
    rw [this]
    simp only [hc, if_true]

theorem loop_items (items : List (Item K)) (st : Loop K) (r : Text) (fuel : Nat)
    (hc : ∀ l, .comment l ∈ items → IsComment l)
    (h3 : ∀ f, .facet f ∈ items → f.length = 3 ∧ ∀ v ∈ f, ExactV print scan v) :
    ∃ tok, loop scan (fuel + items.length) (Loop.mk st.token st.endReached (fresh ((items.map (Item.text print)).flatten ++ r)) st.result) =
      loop scan fuel (Loop.mk tok st.endReached (fresh r) (st.result ++ facetsOf items)) := by
  induction items generalizing st with
  | nil => exact ⟨st.token, by simp [facetsOf]⟩
  | cons i items ih =>
    rw [List.length_cons, ← Nat.add_assoc, loop]
    simp only [Bool.or_self, Bool.false_eq_true, if_false, List.map_cons, List.flatten_cons, List.append_assoc]
    cases i with
    | comment l =>
      obtain ⟨token, ht⟩ := ih st (fun l hl => hc l (by simp [hl])) (fun f hf => h3 f (by simp [hf]))
      refine ⟨token, ?_⟩
      have := turn_comment (scan := scan) st l ((items.map (Item.text print)).flatten ++ r) (hc l (by simp))
      simp only [Item.text, List.append_assoc, List.cons_append, List.nil_append] at this ⊢
      rw [this]
      simp only [] at ht ⊢
      rw [ht]
      simp [facetsOf]
    | facet f =>
      obtain ⟨hf, hv⟩ := h3 f (by simp)
      obtain ⟨a, b, c, rfl⟩ : ∃ a b c, f = [a, b, c] := List.length_eq_three.1 hf
      obtain ⟨token, ht⟩ := ih (Loop.mk (some (lit "facet")) st.endReached (fresh r) (st.result ++ [[a, b, c]]))
        (fun l hl => hc l (by simp [hl])) (fun f hf => h3 f (by simp [hf]))
      refine ⟨token, ?_⟩
      simp only [Item.text]
      rw [turn_facet st a b c _ (hv a (by simp)) (hv b (by simp)) (hv c (by simp))]
      simp only [] at ht ⊢
      rw [ht]
      simp [facetsOf, List.append_assoc]

theorem length_items (items : List (Item K)) : items.length ≤ ((items.map (Item.text print)).flatten).length := by
  induction items with
  | nil => simp
  | cons i items ih =>
    have : 1 ≤ (Item.text print i).length := by
      cases i with
      | comment l => simp [Item.text]
      | facet f => exact length_writeFacet f
    simp only [List.map_cons, List.flatten_cons, List.length_append, List.length_cons]
    omega

/-- **C101** Comments and lines of spaces, anywhere between the first and the last line and between the facets, do not change the mesh that is read. -/
theorem ascii_stl_comments (items : List (Item K)) (hc : ∀ l, .comment l ∈ items → IsComment l)
    (h3 : ∀ f, .facet f ∈ items → f.length = 3 ∧ ∀ v ∈ f, ExactV print scan v) :
    readAscii scan (lit "solid MYSOLID\n" ++ (items.map (Item.text print)).flatten ++ lit "endsolid MYSOLID\n") = .ok (facetsOf items) := by
  have h1 : (lit "solid MYSOLID\n") = (lit "solid MYSOLID") ++ ['\n'] := by decide +kernel
  have h2 : (lit "endsolid MYSOLID\n") = (lit "endsolid MYSOLID") ++ ['\n'] := by decide +kernel
  have e : lit "solid MYSOLID\n" ++ (items.map (Item.text print)).flatten ++ lit "endsolid MYSOLID\n" =
      (lit "solid MYSOLID") ++ '\n' :: ((items.map (Item.text print)).flatten ++ ((lit "endsolid MYSOLID") ++ '\n' :: [])) := by
    rw [h1, h2]
    simp only [List.append_assoc, List.cons_append, List.nil_append]
  rw [e]
  unfold readAscii
  obtain ⟨fuel, hfuel⟩ : ∃ fuel, ((lit "solid MYSOLID") ++ '\n' :: ((items.map (Item.text print)).flatten ++
      ((lit "endsolid MYSOLID") ++ '\n' :: []))).length + 1 = (fuel + 2) + items.length := by
    have := length_items (print := print) items
    refine ⟨(((lit "solid MYSOLID") ++ '\n' :: ((items.map (Item.text print)).flatten ++
      ((lit "endsolid MYSOLID") ++ '\n' :: []))).length + 1) - 2 - items.length, ?_⟩
    simp only [List.length_append, List.length_cons]
    omega
  rw [hfuel, getLine_const _ _ (by decide +kernel) (by decide +kernel)]
  obtain ⟨token, ht⟩ := loop_items (print := print) items
    { token := none, endReached := false, s := (fresh ([])), result := [] }
    ((lit "endsolid MYSOLID") ++ '\n' :: []) (fuel + 2) hc h3
  simp only [] at ht ⊢
  rw [ht, loop_endsolid]
  simp

end

/-- The three kinds of comments, and a line of spaces. -/
example : IsComment (lit "# a") ∧ IsComment (lit "  ! b c") ∧ IsComment (lit " $") ∧ IsComment (lit "   ") ∧ IsComment [] := by
  refine ⟨⟨by decide, by decide, .inr ⟨0, '#', lit " a", by decide, by decide⟩⟩, ⟨by decide, by decide, .inr ⟨2, '!', lit " b c", by decide, by decide⟩⟩,
    ⟨by decide, by decide, .inr ⟨1, '$', [], by decide, by decide⟩⟩, ⟨by decide, by decide, .inl (by decide)⟩, ⟨by decide, by decide, .inl (by decide)⟩⟩

end Xdyn.StlAscii

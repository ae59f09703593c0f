import Verif.Model.StlAscii
import Mathlib.Data.List.Basic
import Mathlib.Tactic.Common

namespace Xdyn.Stl

/-! ## Which data is text (C102) -/

/-- A blank of `is_stl_data_binary`: space or tabulation. -/
def Blank (c : Byte) : Prop := c = 32 ∨ c = 9

theorem blank_test (c : Byte) : (!(c.val == 32 || c.val == 9)) = false ↔ Blank c := by
  simp only [Bool.not_eq_false', Bool.or_eq_true, beq_iff_eq, Blank, Fin.ext_iff]
  rfl

theorem findIdx?_split (l : List Byte) :
    (l.findIdx? (fun c => !(c.val == 32 || c.val == 9)) = none ∧ ∀ c ∈ l, Blank c) ∨
    ∃ ws x r, l = ws ++ x :: r ∧ (∀ c ∈ ws, Blank c) ∧ ¬ Blank x ∧
      l.findIdx? (fun c => !(c.val == 32 || c.val == 9)) = some ws.length := by
  induction l with
  | nil => left; simp
  | cons a l ih =>
    by_cases ha : Blank a
    · have hf := (blank_test a).2 ha
      rcases ih with ⟨h1, h2⟩ | ⟨ws, x, r, rfl, h2, h3, h4⟩
      · left
        refine ⟨by rw [List.findIdx?_cons, h1]; simp [hf], ?_⟩
        intro c hc
        rcases List.mem_cons.1 hc with rfl | hc
        · exact ha
        · exact h2 c hc
      · right
        refine ⟨a :: ws, x, r, rfl, ?_, h3, ?_⟩
        · intro c hc
          rcases List.mem_cons.1 hc with rfl | hc
          · exact ha
          · exact h2 c hc
        · rw [List.findIdx?_cons, h4]; simp [hf]
    · right
      refine ⟨[], a, l, rfl, by simp, ha, ?_⟩
      have : (!(a.val == 32 || a.val == 9)) = true := by
        rw [← Bool.not_eq_false, blank_test]; exact ha
      rw [List.findIdx?_cons, this]; rfl

theorem take_eq_iff {l p : List Byte} : (l.take p.length == p) = true ↔ ∃ r, l = p ++ r := by
  rw [beq_iff_eq]
  constructor
  · intro h; exact ⟨l.drop p.length, by conv_lhs => rw [← List.take_append_drop p.length l, h]⟩
  · rintro ⟨r, rfl⟩; simp

theorem startsWith_at (ws l p : List Byte) :
    ∃ b, startsWith (ws ++ l) p (some ws.length) = some b ∧ (b = true ↔ ∃ r, l = p ++ r) := by
  unfold startsWith
  by_cases h : p.length ≤ (ws ++ l).length
  · rw [if_pos h]
    simp only [List.length_append, Nat.le_add_right, if_true, List.drop_left]
    exact ⟨_, rfl, take_eq_iff⟩
  · rw [if_neg h]
    refine ⟨false, rfl, by simp, ?_⟩
    rintro ⟨r, rfl⟩
    simp at h
    omega

/-- **C102** Data is read as text exactly when it begins with `solid ` or `SOLID `, after any
number of blanks and tabs. -/
theorem stl_text_iff (input : List Byte) :
    isBinary input = some false ↔
      ∃ ws word r, (∀ c ∈ ws, Blank c) ∧
        (word = [115, 111, 108, 105, 100, 32] ∨ word = [83, 79, 76, 73, 68, 32]) ∧
        input = ws ++ word ++ r := by
  constructor
  · intro h
    rcases findIdx?_split input with ⟨h1, h2⟩ | ⟨ws, x, r, hin, h2, h3, h4⟩
    · exfalso
      rw [isBinary, h1] at h
      by_cases hl : 6 ≤ input.length
      · simp [startsWith, solidLower, hl] at h
      · simp [startsWith, solidLower, solidUpper, hl] at h
    · rw [isBinary, h4] at h
      subst hin
      obtain ⟨b1, hb1, e1⟩ := startsWith_at ws (x :: r) solidLower
      obtain ⟨b2, hb2, e2⟩ := startsWith_at ws (x :: r) solidUpper
      rw [hb1] at h
      cases b1
      · rw [hb2] at h
        cases b2
        · simp at h
        · obtain ⟨r', hr⟩ := e2.1 rfl
          exact ⟨ws, solidUpper, r', h2, Or.inr rfl, by rw [hr, List.append_assoc]⟩
      · obtain ⟨r', hr⟩ := e1.1 rfl
        exact ⟨ws, solidLower, r', h2, Or.inl rfl, by rw [hr, List.append_assoc]⟩
  · rintro ⟨ws, w, r, hws, hw, rfl⟩
    have hne : ∃ x t, w ++ r = x :: t ∧ ¬ Blank x := by
      rcases hw with rfl | rfl
      · exact ⟨115, _, rfl, by unfold Blank; decide⟩
      · exact ⟨83, _, rfl, by unfold Blank; decide⟩
    obtain ⟨x, t, hx, hxb⟩ := hne
    have hidx : (ws ++ w ++ r).findIdx? (fun c => !(c.val == 32 || c.val == 9)) = some ws.length := by
      rw [List.append_assoc, hx]
      clear hx
      induction ws with
      | nil =>
        have : (!(x.val == 32 || x.val == 9)) = true := by
          rw [← Bool.not_eq_false, blank_test]; exact hxb
        rw [List.nil_append, List.findIdx?_cons, this]; rfl
      | cons a ws ih =>
        have ha := (blank_test a).2 (hws a (by simp))
        rw [List.cons_append, List.findIdx?_cons, ih (fun c hc => hws c (by simp [hc]))]
        simp [ha]
    rw [isBinary, hidx, List.append_assoc]
    obtain ⟨b1, hb1, e1⟩ := startsWith_at ws (w ++ r) solidLower
    obtain ⟨b2, hb2, e2⟩ := startsWith_at ws (w ++ r) solidUpper
    rw [hb1]
    rcases hw with rfl | rfl
    · rw [e1.2 ⟨r, rfl⟩]; rfl
    · rw [hb2, e2.2 ⟨r, rfl⟩]
      cases b1 <;> rfl

/-- The test raises `std::out_of_range` exactly on blank data of six characters or more. -/
theorem stl_test_throws_iff (input : List Byte) :
    isBinary input = none ↔ 6 ≤ input.length ∧ ∀ c ∈ input, Blank c := by
  rcases findIdx?_split input with ⟨h1, h2⟩ | ⟨ws, x, r, hin, h2, h3, h4⟩
  · rw [isBinary, h1]
    by_cases hl : 6 ≤ input.length
    · simp [startsWith, solidLower, hl]; exact h2
    · simp [startsWith, solidLower, solidUpper, hl]
  · subst hin
    obtain ⟨b1, hb1, -⟩ := startsWith_at ws (x :: r) solidLower
    obtain ⟨b2, hb2, -⟩ := startsWith_at ws (x :: r) solidUpper
    rw [isBinary, h4, hb1]
    constructor
    · intro h
      cases b1
      · rw [hb2] at h; cases b2 <;> simp at h
      · simp at h
    · rintro ⟨-, h⟩
      exact absurd (h x (by simp)) h3

/-- A text file whose first line is `solid` without a name is taken for a binary one: its
characters become coordinates. -/
theorem stl_unnamed_solid_is_binary (r : List Byte) :
    isBinary ([115, 111, 108, 105, 100, 10] ++ r) = some true := by
  rcases h : isBinary ([115, 111, 108, 105, 100, 10] ++ r) with _ | b
  · obtain ⟨-, h⟩ := (stl_test_throws_iff _).1 h
    have := h 115 (by simp)
    revert this; unfold Blank; decide
  · cases b
    · obtain ⟨ws, w, t, hws, hw, e⟩ := (stl_text_iff _).1 h
      cases ws with
      | nil => rcases hw with rfl | rfl <;> simp at e
      | cons a ws =>
        simp at e
        have := hws a (by simp)
        rw [← e.1] at this
        revert this; unfold Blank; decide
    · rfl

end Xdyn.Stl

namespace Xdyn.StlAscii

variable {K : Type}

/-! ## Round trip of text files (C101) -/

/-- A number is exactly represented by its text: the text is short, has no blank, and reading
it back, in a line where it is preceded by blanks and followed by a blank or by the end of
the line, gives the number. -/
structure Exact (print : K → Text) (scan : Text → Option (K × Text)) (x : K) : Prop where
  chars : ∀ c ∈ print x, isSpace c = false ∧ c ≠ '\x00' ∧ c.toNat < 256
  len : (print x).length ≤ 70
  read : ∀ n r, (r = [] ∨ ∃ r', r = ' ' :: r') →
    scan (List.replicate n ' ' ++ print x ++ r) = some (x, r)

/-- A stream in a good state. -/
abbrev fresh (t : Text) : TStream := { data := t, eof := false, fail := false }

theorem takeWhile_all' {p : Char → Bool} {l r : Text} {c : Char} (h : ∀ x ∈ l, p x = true)
    (hc : p c = false) : (l ++ c :: r).takeWhile p = l ∧ (l ++ c :: r).dropWhile p = c :: r := by
  induction l with
  | nil => simp [hc]
  | cons a l ih =>
    obtain ⟨h1, h2⟩ := ih (fun x hx => h x (by simp [hx]))
    simp [h a (by simp), h1, h2]

theorem cstr_eq {l : Text} (h : ∀ c ∈ l, c ≠ '\x00') : cstr l = l := by
  unfold cstr
  induction l with
  | nil => rfl
  | cons a l ih =>
    rw [List.takeWhile_cons, if_pos (by simpa using h a (by simp)), ih (fun c hc => h c (by simp [hc]))]

/-- A clean line is read entirely. -/
theorem getLine_line (l r : Text) (h : ∀ c ∈ l, c ≠ '\n' ∧ c ≠ '\x00') (hl : l.length ≤ 255) :
    getLine (fresh (l ++ '\n' :: r))
      = (l, (fresh (r))) := by
  obtain ⟨h1, h2⟩ := takeWhile_all' (p := fun c => c != '\n') (l := l) (r := r) (c := '\n')
    (fun x hx => by simpa using (h x hx).1) (by simp)
  unfold getLine
  simp only [h1, h2, hl, if_true, Bool.or_self, Bool.false_eq_true, if_false,
    cstr_eq (fun c hc => (h c hc).2)]

/-- The line of a vertex, without its end. -/
def vertexLine (print : K → Text) (p : Vertex K) : Text :=
  (lit "      vertex   ") ++ print p.1 ++ (lit "     ") ++ print p.2.1 ++ (lit "     ") ++ print p.2.2

def ExactV (print : K → Text) (scan : Text → Option (K × Text)) (v : Vertex K) : Prop :=
  Exact print scan v.1 ∧ Exact print scan v.2.1 ∧ Exact print scan v.2.2

variable {print : K → Text} {scan : Text → Option (K × Text)}

theorem exact_line {x : K} (h : Exact print scan x) : ∀ c ∈ print x, c ≠ '\n' ∧ c ≠ '\x00' := by
  intro c hc
  obtain ⟨h1, h2, -⟩ := h.chars c hc
  refine ⟨?_, h2⟩
  rintro rfl
  simp [isSpace] at h1

theorem vertexLine_clean {v : Vertex K} (h : ExactV print scan v) :
    (∀ c ∈ vertexLine print v, c ≠ '\n' ∧ c ≠ '\x00') ∧ (vertexLine print v).length ≤ 255 := by
  obtain ⟨h1, h2, h3⟩ := h
  constructor
  · intro c hc
    simp only [vertexLine, List.mem_append] at hc
    rcases hc with ((((hc | hc) | hc) | hc) | hc) | hc
    · revert c; decide +kernel
    · exact exact_line h1 c hc
    · revert c; decide +kernel
    · exact exact_line h2 c hc
    · revert c; decide +kernel
    · exact exact_line h3 c hc
  · have := h1.len; have := h2.len; have := h3.len
    simp [vertexLine, lit]; omega

theorem readVertex_line {v : Vertex K} (h : ExactV print scan v) :
    readVertex scan (vertexLine print v) = .ok v := by
  obtain ⟨h1, h2, h3⟩ := h
  have hw : word (vertexLine print v) = some ((lit "vertex"),
      List.replicate 3 ' ' ++ print v.1 ++ (' ' :: (List.replicate 4 ' ' ++ print v.2.1 ++
        (' ' :: (List.replicate 4 ' ' ++ print v.2.2 ++ []))))) := by
    simp [vertexLine, word, isSpace, lit]
  have e1 := h1.read 3 (' ' :: (List.replicate 4 ' ' ++ print v.2.1 ++
        (' ' :: (List.replicate 4 ' ' ++ print v.2.2 ++ [])))) (Or.inr ⟨_, rfl⟩)
  have e2 := h2.read 5 (' ' :: (List.replicate 4 ' ' ++ print v.2.2 ++ [])) (Or.inr ⟨_, rfl⟩)
  have e3 := h3.read 5 [] (Or.inl rfl)
  unfold readVertex
  rw [hw]
  have hs : scan3 scan (List.replicate 3 ' ' ++ print v.1 ++ (' ' :: (List.replicate 4 ' ' ++ print v.2.1 ++
        (' ' :: (List.replicate 4 ' ' ++ print v.2.2 ++ []))))) = some v := by
    unfold scan3
    rw [e1]
    simp only [Option.bind_eq_bind, Option.bind_some]
    have e2' : scan (' ' :: (List.replicate 4 ' ' ++ print v.2.1 ++
        (' ' :: (List.replicate 4 ' ' ++ print v.2.2 ++ [])))) = some (v.2.1, ' ' :: (List.replicate 4 ' ' ++ print v.2.2 ++ [])) := e2
    have e3' : scan (' ' :: (List.replicate 4 ' ' ++ print v.2.2 ++ [])) = some (v.2.2, []) := e3
    rw [e2']
    simp only [Option.bind_some]
    rw [e3']
    rfl
  simp only [hs]
  rfl

theorem writeVertex_eq (v : Vertex K) (r : Text) :
    writeVertex print v ++ r = vertexLine print v ++ '\n' :: r := by
  simp [writeVertex, vertexLine, lit]

/-- The two first lines of a facet. -/
theorem writeFacet_eq (f : List (Vertex K)) (r : Text) :
    writeFacet print f ++ r =
      (lit "  facet normal   0.00000  0.00000  0.00000") ++ '\n' :: ((lit "    outer loop") ++
        '\n' :: ((f.map (writeVertex print)).flatten ++ ((lit "    endloop") ++ '\n' ::
          ((lit "  endfacet") ++ '\n' :: r)))) := by
  have h1 : (lit "  facet normal   0.00000  0.00000  0.00000\n") = (lit "  facet normal   0.00000  0.00000  0.00000") ++ ['\n'] := by decide +kernel
  have h2 : (lit "    outer loop\n") = (lit "    outer loop") ++ ['\n'] := by decide +kernel
  have h3 : (lit "    endloop\n") = (lit "    endloop") ++ ['\n'] := by decide +kernel
  have h4 : (lit "  endfacet\n") = (lit "  endfacet") ++ ['\n'] := by decide +kernel
  rw [writeFacet, h1, h2, h3, h4]
  simp only [List.append_assoc, List.cons_append, List.nil_append]

theorem getLine_const (l : Text) (r : Text) (h : (l.all (fun c => c != '\n' && c != '\x00')) = true)
    (hl : l.length ≤ 255) :
    getLine (fresh (l ++ '\n' :: r))
      = (l, (fresh (r))) := by
  apply getLine_line _ _ _ hl
  intro c hc
  have := List.all_eq_true.1 h c hc
  simpa using this

/-- One turn on a facet line reads the rest of the facet. -/
theorem turn_facet_line (st : Loop K) (r : Text) :
    turn scan { st with s := (fresh ((lit "  facet normal   0.00000  0.00000  0.00000") ++ '\n' :: r)) }
    = dispatch scan (lit "facet") (lit " normal   0.00000  0.00000  0.00000")
        { st with s := (fresh (r)) } := by
  unfold turn
  rw [getLine_const _ _ (by decide +kernel) (by decide +kernel)]
  rfl

/-- One turn reads one triangle. -/
theorem turn_facet (st : Loop K) (a b c : Vertex K) (r : Text)
    (ha : ExactV print scan a) (hb : ExactV print scan b) (hc : ExactV print scan c) :
    turn scan { st with s := (fresh (writeFacet print [a, b, c] ++ r)) }
    = .ok { token := some (lit "facet"), endReached := st.endReached,
            s := (fresh (r)), result := st.result ++ [[a, b, c]] } := by
  rw [writeFacet_eq, turn_facet_line, dispatch, if_pos rfl]
  have hn : readNormal (lit " normal   0.00000  0.00000  0.00000") = .ok () := rfl
  simp only [readFacet, hn, bind, Except.bind, List.map_cons, List.map_nil, List.flatten_cons,
    List.flatten_nil, List.append_nil, List.append_assoc, writeVertex_eq]
  rw [getLine_const _ _ (by decide +kernel) (by decide +kernel)]
  simp only [List.cons_append, List.append_assoc, writeVertex_eq]
  rw [getLine_line _ _ (vertexLine_clean ha).1 (vertexLine_clean ha).2]
  simp only [readVertex_line ha]
  rw [getLine_line _ _ (vertexLine_clean hb).1 (vertexLine_clean hb).2]
  simp only [readVertex_line hb]
  rw [getLine_line _ _ (vertexLine_clean hc).1 (vertexLine_clean hc).2]
  simp only [readVertex_line hc]
  rw [getLine_const _ _ (by decide +kernel) (by decide +kernel)]
  simp only []
  rw [getLine_const _ _ (by decide +kernel) (by decide +kernel)]
  rfl

/-- Reading the facets of a mesh takes one turn per facet. -/
theorem loop_facets (mesh : TextMesh K) (st : Loop K) (r : Text) (fuel : Nat)
    (h3 : ∀ f ∈ mesh, f.length = 3) (hx : ∀ f ∈ mesh, ∀ v ∈ f, ExactV print scan v) :
    ∃ tok, loop scan (fuel + mesh.length) (Loop.mk st.token st.endReached (fresh ((mesh.map (writeFacet print)).flatten ++ r)) st.result) =
    loop scan fuel (Loop.mk tok st.endReached (fresh r) (st.result ++ mesh)) := by
  induction mesh generalizing st with
  | nil => exact ⟨st.token, by simp⟩
  | cons f mesh ih =>
    obtain ⟨a, b, c, rfl⟩ : ∃ a b c, f = [a, b, c] := List.length_eq_three.1 (h3 f (by simp))
    have hv := hx [a, b, c] (by simp)
    obtain ⟨token, ht⟩ := ih (Loop.mk (some (lit "facet")) st.endReached (fresh r) (st.result ++ [[a, b, c]]))
            (fun f hf => h3 f (by simp [hf])) (fun f hf => hx f (by simp [hf]))
    refine ⟨token, ?_⟩
    rw [List.length_cons, ← Nat.add_assoc, loop]
    simp only [Bool.or_self, Bool.false_eq_true, if_false, List.map_cons, List.flatten_cons,
      List.append_assoc]
    rw [turn_facet st a b c _ (hv a (by simp)) (hv b (by simp)) (hv c (by simp))]
    simp only [] at ht ⊢
    rw [ht]
    simp [List.append_assoc]

theorem writeStl_eq (mesh : TextMesh K) :
    writeStl print mesh = (lit "solid MYSOLID") ++ '\n' :: ((mesh.map (writeFacet print)).flatten ++
      ((lit "endsolid MYSOLID") ++ '\n' :: [])) := by
  have h1 : (lit "solid MYSOLID\n") = (lit "solid MYSOLID") ++ ['\n'] := by decide +kernel
  have h2 : (lit "endsolid MYSOLID\n") = (lit "endsolid MYSOLID") ++ ['\n'] := by decide +kernel
  rw [writeStl, h1, h2]
  simp only [List.append_assoc, List.cons_append, List.nil_append]

theorem length_writeFacet (f : List (Vertex K)) : 1 ≤ (writeFacet print f).length := by
  simp [writeFacet, lit]

theorem length_flatten_writeFacet (mesh : TextMesh K) :
    mesh.length ≤ ((mesh.map (writeFacet print)).flatten).length := by
  induction mesh with
  | nil => simp
  | cons f mesh ih =>
    have := length_writeFacet (print := print) f
    simp only [List.map_cons, List.flatten_cons, List.length_append, List.length_cons]
    omega

theorem loop_done (fuel : Nat) (st : Loop K) (h : (st.s.fail || st.s.eof) = true) :
    loop scan fuel st = .ok st := by
  cases fuel <;> simp [loop, h]

/-- The last line and the end of the file. -/
theorem loop_endsolid (fuel : Nat) (token : Option Text) (m : TextMesh K) :
    loop scan (fuel + 2) (Loop.mk token false (fresh (lit "endsolid MYSOLID" ++ '\n' :: [])) m) =
      .ok (Loop.mk (some (lit "endsolid")) true { data := [], eof := true, fail := true } m) := by
  have h1 : turn scan (Loop.mk token false (fresh (lit "endsolid MYSOLID" ++ '\n' :: [])) m) =
      .ok (Loop.mk (some (lit "endsolid")) true (fresh []) m) := by
    unfold turn
    simp only []
    rw [getLine_const _ _ (by decide +kernel) (by decide +kernel)]
    have h1 : (lit "endsolid MYSOLID").dropWhile (fun c => c == ' ') = 'e' :: lit "ndsolid MYSOLID" := by
      decide +kernel
    have h2 : word ('e' :: lit "ndsolid MYSOLID") = some (lit "endsolid", lit " MYSOLID") := by decide +kernel
    have d1 : lit "endsolid" ≠ lit "facet" := by decide +kernel
    have d2 : lit "endsolid" ≠ lit "color" := by decide +kernel
    have d3 : lit "endsolid" ≠ lit "solid" := by decide +kernel
    simp [h1, h2, dispatch, d1, d2, d3, pure, Except.pure]
  have h2 : turn scan (Loop.mk (some (lit "endsolid")) true (fresh []) m) =
      .ok (Loop.mk (some (lit "endsolid")) true { data := [], eof := true, fail := true } m) := by
    simp [turn, getLine, cstr]
  rw [loop]
  simp only [h1, Bool.or_self, Bool.false_eq_true, if_false]
  rw [loop]
  simp only [h2, Bool.or_self, Bool.false_eq_true, if_false]
  rw [loop_done _ _ rfl]

/-- **C101** Reading the text written for a mesh of triangles gives this mesh, whatever its
number of facets, as far as the coordinates are exactly represented by their texts. -/
theorem ascii_stl_round_trip (mesh : TextMesh K) (h3 : ∀ f ∈ mesh, f.length = 3)
    (hx : ∀ f ∈ mesh, ∀ v ∈ f, ExactV print scan v) :
    readAscii scan (writeStl print mesh) = .ok mesh := by
  unfold readAscii
  have hfuel : ∃ fuel, (writeStl print mesh).length + 1 = (fuel + 2) + mesh.length := by
    have := length_flatten_writeFacet (print := print) mesh
    rw [writeStl_eq]
    refine ⟨(((lit "solid MYSOLID") ++ '\n' :: ((mesh.map (writeFacet print)).flatten ++
      ((lit "endsolid MYSOLID") ++ '\n' :: []))).length + 1) - 2 - mesh.length, ?_⟩
    simp only [List.length_append, List.length_cons]
    omega
  obtain ⟨fuel, hfuel⟩ := hfuel
  rw [hfuel, writeStl_eq, getLine_const _ _ (by decide +kernel) (by decide +kernel)]
  obtain ⟨token, ht⟩ := loop_facets (print := print) mesh
    { token := none, endReached := false, s := (fresh ([])), result := [] }
    ((lit "endsolid MYSOLID") ++ '\n' :: []) (fuel + 2) h3 hx
  simp only [] at ht ⊢
  rw [ht]
  rw [loop_endsolid]
  simp

/-- The bytes of a text. -/
def toBytes (t : Text) : List Stl.Byte := t.map (fun c => ⟨c.toNat % 256, by omega⟩)

theorem ofBytes_toBytes (t : Text) (h : ∀ c ∈ t, c.toNat < 256) :
    (toBytes t).map (fun b => Char.ofNat b.val) = t := by
  induction t with
  | nil => rfl
  | cons c t ih =>
    have hc := h c (by simp)
    simp only [toBytes, List.map_cons, List.map_map] at ih ⊢
    rw [ih (fun x hx => h x (by simp [hx])), Nat.mod_eq_of_lt hc, Char.ofNat_toNat]

theorem writeStl_bytes (mesh : TextMesh K) (hx : ∀ f ∈ mesh, ∀ v ∈ f, ExactV print scan v) :
    ∀ c ∈ writeStl print mesh, c.toNat < 256 := by
  intro c hc
  simp only [writeStl, List.mem_append, List.mem_flatten, List.mem_map] at hc
  rcases hc with (hc | ⟨t, ⟨f, hf, rfl⟩, hc⟩) | hc
  · revert c; decide +kernel
  · simp only [writeFacet, List.mem_append, List.mem_flatten, List.mem_map] at hc
    rcases hc with (((hc | hc) | ⟨t, ⟨v, hv, rfl⟩, hc⟩) | hc) | hc
    · revert c; decide +kernel
    · revert c; decide +kernel
    · obtain ⟨h1, h2, h3⟩ := hx f hf v hv
      simp only [writeVertex, List.mem_append] at hc
      rcases hc with (((((hc | hc) | hc) | hc) | hc) | hc) | hc
      · revert c; decide +kernel
      · exact (h1.chars c hc).2.2
      · revert c; decide +kernel
      · exact (h2.chars c hc).2.2
      · revert c; decide +kernel
      · exact (h3.chars c hc).2.2
      · revert c; decide +kernel
    · revert c; decide +kernel
    · revert c; decide +kernel
  · revert c; decide +kernel

/-- **C101** The same with the format detection: the written text is recognised as such. -/
theorem ascii_stl_round_trip_detected (mesh : TextMesh K) (h3 : ∀ f ∈ mesh, f.length = 3)
    (hx : ∀ f ∈ mesh, ∀ v ∈ f, ExactV print scan v) :
    readStl scan (toBytes (writeStl print mesh)) = .ok (.text mesh) := by
  have hb : Stl.isBinary (toBytes (writeStl print mesh)) = some false := by
    rw [Stl.stl_text_iff]
    refine ⟨[], [115, 111, 108, 105, 100, 32],
      toBytes ((lit "MYSOLID") ++ '\n' :: ((mesh.map (writeFacet print)).flatten ++
      ((lit "endsolid MYSOLID") ++ '\n' :: []))), by simp, Or.inl rfl, ?_⟩
    rw [writeStl_eq]
    rfl
  unfold readStl
  rw [hb, ofBytes_toBytes _ (writeStl_bytes mesh hx)]
  simp only [ascii_stl_round_trip mesh h3 hx]

/-! ## What is refused -/

/-- A line that begins with an unexpected word is refused. -/
theorem loop_unknown (st : Loop K) (l t : Text) (fuel : Nat) (c : Char) (l' w l'' : Text)
    (h1 : ∀ c ∈ l, c ≠ '\n' ∧ c ≠ '\x00') (h2 : l.length ≤ 255) (h3 : st.s = fresh (l ++ '\n' :: t))
    (h4 : l.dropWhile (fun c => c == ' ') = c :: l') (h5 : c ≠ '#' ∧ c ≠ '!' ∧ c ≠ '$')
    (h8 : word (c :: l') = some (w, l''))
    (h9 : w ≠ lit "facet" ∧ w ≠ lit "color" ∧ w ≠ lit "solid" ∧ w ≠ lit "endsolid") :
    loop scan (fuel + 1) st = .error (.throw "Error unknown token") := by
  obtain ⟨h5, h6, h7⟩ := h5
  obtain ⟨h9, h10, h11, h12⟩ := h9
  rw [loop, h3]
  simp only [Bool.or_self, Bool.false_eq_true, if_false, turn, h3, getLine_line l t h1 h2, h4,
    h5, h6, h7, or_false, h8, dispatch, h9, h10, h11, h12]

theorem loop_vertexLine (st : Loop K) (t : Text) (fuel : Nat) (g : Vertex K) (hg : ExactV print scan g)
    (h3 : st.s = fresh (vertexLine print g ++ '\n' :: t)) :
    loop scan (fuel + 1) st = .error (.throw "Error unknown token") := by
  have e1 : (vertexLine print g).dropWhile (fun c => c == ' ') =
      'v' :: (lit "ertex   " ++ print g.1 ++ lit "     " ++ print g.2.1 ++ lit "     " ++ print g.2.2) := by
    simp [vertexLine, lit]
  have e2 : word ('v' :: (lit "ertex   " ++ print g.1 ++ lit "     " ++ print g.2.1 ++ lit "     " ++ print g.2.2))
      = some (lit "vertex", lit "   " ++ print g.1 ++ lit "     " ++ print g.2.1 ++ lit "     " ++ print g.2.2) := by
    simp [word, isSpace, lit]
  exact loop_unknown st _ t fuel _ _ _ _ (vertexLine_clean hg).1 (vertexLine_clean hg).2 h3 e1 (by decide) e2
    (by decide +kernel)

theorem loop_constLine (st : Loop K) (l t : Text) (fuel : Nat) (hl : l = lit "  endfacet" ∨ l = lit "    endloop")
    (h3 : st.s = fresh (l ++ '\n' :: t)) :
    loop scan (fuel + 1) st = .error (.throw "Error unknown token") := by
  rcases hl with rfl | rfl
  · exact loop_unknown st _ t fuel 'e' (lit "ndfacet") (lit "endfacet") [] (by decide +kernel) (by decide +kernel) h3
      (by decide +kernel) (by decide +kernel) (by decide +kernel) (by decide +kernel)
  · exact loop_unknown st _ t fuel 'e' (lit "ndloop") (lit "endloop") [] (by decide +kernel) (by decide +kernel) h3
      (by decide +kernel) (by decide +kernel) (by decide +kernel) (by decide +kernel)

theorem readVertex_endloop : readVertex scan (lit "    endloop") = .error (.throw "Error parsing \"vertex") := by
  have h1 : word (lit "    endloop") = some (lit "endloop", []) := by decide +kernel
  have h2 : lit "endloop" ≠ lit "vertex" := by decide +kernel
  have h3 : ¬ 20 ≤ (lit "endloop").length := by decide +kernel
  simp [readVertex, h1, h2, h3]

theorem readNormal_const : readNormal (lit " normal   0.00000  0.00000  0.00000") = .ok () := by
  have h1 : word (lit " normal   0.00000  0.00000  0.00000") = some (lit "normal", lit "   0.00000  0.00000  0.00000") := by
    decide +kernel
  have h3 : ¬ 20 ≤ (lit "normal").length := by decide +kernel
  simp [readNormal, h1, h3]

/-- The text of a facet after its first line. -/
def facetRest (print : K → Text) (f : List (Vertex K)) (r : Text) : Text :=
  lit "    outer loop" ++ '\n' :: ((f.map (writeVertex print)).flatten ++ (lit "    endloop" ++ '\n' ::
          (lit "  endfacet" ++ '\n' :: r)))

/-- Too few vertices: the end of the loop is read as a vertex. -/
theorem readFacet_few (f : List (Vertex K)) (r : Text) (hf : f.length < 3) (hv : ∀ v ∈ f, ExactV print scan v) :
    readFacet scan (lit " normal   0.00000  0.00000  0.00000") (fresh (facetRest print f r)) =
      .error (.throw "Error parsing \"vertex") := by
  unfold readFacet facetRest
  simp only [readNormal_const, bind, Except.bind]
  rw [getLine_const _ _ (by decide +kernel) (by decide +kernel)]
  rcases f with _ | ⟨a, _ | ⟨b, _ | ⟨c, f⟩⟩⟩
  · simp only [List.map_nil, List.flatten_nil, List.nil_append]
    rw [getLine_const _ _ (by decide +kernel) (by decide +kernel)]
    simp only [readVertex_endloop]
  · simp only [List.map_cons, List.map_nil, List.flatten_cons, List.flatten_nil, List.append_nil, writeVertex_eq]
    have ha := hv a (by simp)
    rw [getLine_line _ _ (vertexLine_clean ha).1 (vertexLine_clean ha).2]
    simp only [readVertex_line ha]
    rw [getLine_const _ _ (by decide +kernel) (by decide +kernel)]
    simp only [readVertex_endloop]
  · simp only [List.map_cons, List.map_nil, List.flatten_cons, List.flatten_nil, List.append_nil,
      List.append_assoc, List.cons_append, writeVertex_eq]
    have ha := hv a (by simp)
    have hb := hv b (by simp)
    rw [getLine_line _ _ (vertexLine_clean ha).1 (vertexLine_clean ha).2]
    simp only [readVertex_line ha]
    rw [getLine_line _ _ (vertexLine_clean hb).1 (vertexLine_clean hb).2]
    simp only [readVertex_line hb]
    rw [getLine_const _ _ (by decide +kernel) (by decide +kernel)]
    simp only [readVertex_endloop]
  · simp at hf; omega

/-- Too many vertices: the reader is out of step afterwards. -/
theorem readFacet_many (a b c d : Vertex K) (f : List (Vertex K)) (r : Text)
    (hv : ∀ v ∈ a :: b :: c :: d :: f, ExactV print scan v) :
    ∃ l t, readFacet scan (lit " normal   0.00000  0.00000  0.00000")
      (fresh (facetRest print (a :: b :: c :: d :: f) r)) = .ok ([a, b, c], fresh (l ++ '\n' :: t)) ∧
      (l = lit "  endfacet" ∨ l = lit "    endloop" ∨ ∃ g, ExactV print scan g ∧ l = vertexLine print g) := by
  have ha := hv a (by simp)
  have hb := hv b (by simp)
  have hc := hv c (by simp)
  have hd := hv d (by simp)
  unfold readFacet facetRest
  simp only [readNormal_const, bind, Except.bind]
  rw [getLine_const _ _ (by decide +kernel) (by decide +kernel)]
  simp only [List.map_cons, List.flatten_cons, List.append_assoc, List.cons_append, writeVertex_eq]
  rw [getLine_line _ _ (vertexLine_clean ha).1 (vertexLine_clean ha).2]
  simp only [readVertex_line ha]
  rw [getLine_line _ _ (vertexLine_clean hb).1 (vertexLine_clean hb).2]
  simp only [readVertex_line hb]
  rw [getLine_line _ _ (vertexLine_clean hc).1 (vertexLine_clean hc).2]
  simp only [readVertex_line hc]
  rw [getLine_line _ _ (vertexLine_clean hd).1 (vertexLine_clean hd).2]
  simp only []
  rcases f with _ | ⟨e, _ | ⟨g, f⟩⟩
  · simp only [List.map_nil, List.flatten_nil, List.nil_append]
    rw [getLine_const _ _ (by decide +kernel) (by decide +kernel)]
    exact ⟨_, _, rfl, Or.inl rfl⟩
  · have he := hv e (by simp)
    simp only [List.map_cons, List.map_nil, List.flatten_cons, List.flatten_nil, List.append_nil, writeVertex_eq]
    rw [getLine_line _ _ (vertexLine_clean he).1 (vertexLine_clean he).2]
    exact ⟨_, _, rfl, Or.inr (Or.inl rfl)⟩
  · have he := hv e (by simp)
    have hg := hv g (by simp)
    simp only [List.map_cons, List.flatten_cons, List.append_assoc, List.cons_append, writeVertex_eq]
    rw [getLine_line _ _ (vertexLine_clean he).1 (vertexLine_clean he).2]
    exact ⟨_, _, rfl, Or.inr (Or.inr ⟨g, hg, rfl⟩)⟩

theorem turn_facetRest (token : Option Text) (e : Bool) (f : List (Vertex K)) (m : TextMesh K) (r : Text) :
    turn scan (Loop.mk token e (fresh (writeFacet print f ++ r)) m) =
      match readFacet scan (lit " normal   0.00000  0.00000  0.00000") (fresh (facetRest print f r)) with
      | .ok (g, s) => .ok (Loop.mk (some (lit "facet")) e s (m ++ [g]))
      | .error x => .error x := by
  have := turn_facet_line (scan := scan) (Loop.mk token e (fresh []) m) (facetRest print f r)
  rw [writeFacet_eq]
  simp only [facetRest] at this ⊢
  rw [this, dispatch, if_pos rfl]
  simp only [bind, Except.bind]
  split <;> simp_all [pure, Except.pure]

/-- **C101** A facet which is not a triangle, written as text, is refused when it is read
back: it is never silently truncated. -/
theorem ascii_stl_polygons_refused (pre post : TextMesh K) (f : List (Vertex K))
    (h3 : ∀ g ∈ pre, g.length = 3) (hf : f.length ≠ 3)
    (hx : ∀ g ∈ pre ++ f :: post, ∀ v ∈ g, ExactV print scan v) :
    ∃ msg, readAscii scan (writeStl print (pre ++ f :: post)) = .error (.throw msg) := by
  unfold readAscii
  have hfuel : ∃ fuel, (writeStl print (pre ++ f :: post)).length + 1 = (fuel + 2) + pre.length := by
    have := length_flatten_writeFacet (print := print) (pre ++ f :: post)
    rw [writeStl_eq]
    refine ⟨((lit "solid MYSOLID" ++ '\n' :: (((pre ++ f :: post).map (writeFacet print)).flatten ++
      (lit "endsolid MYSOLID" ++ '\n' :: []))).length + 1) - 2 - pre.length, ?_⟩
    simp only [List.length_append, List.length_cons] at this ⊢
    omega
  obtain ⟨fuel, hfuel⟩ := hfuel
  rw [hfuel, writeStl_eq, getLine_const _ _ (by decide +kernel) (by decide +kernel)]
  simp only [List.map_append, List.flatten_append, List.map_cons, List.flatten_cons, List.append_assoc]
  obtain ⟨token, ht⟩ := loop_facets (print := print) pre
    { token := none, endReached := false, s := fresh [], result := [] }
    (writeFacet print f ++ ((post.map (writeFacet print)).flatten ++ (lit "endsolid MYSOLID" ++ '\n' :: [])))
    (fuel + 2) h3 (fun g hg => hx g (by simp [hg]))
  simp only [] at ht ⊢
  rw [ht]
  have hv : ∀ v ∈ f, ExactV print scan v := hx f (by simp)
  generalize ((post.map (writeFacet print)).flatten ++ (lit "endsolid MYSOLID" ++ '\n' :: [])) = r
  rw [loop]
  simp only [Bool.or_self, Bool.false_eq_true, if_false, List.nil_append, turn_facetRest]
  rcases Nat.lt_or_ge f.length 3 with hlt | hge
  · rw [readFacet_few f r hlt hv]
    exact ⟨_, rfl⟩
  · rcases f with _ | ⟨a, _ | ⟨b, _ | ⟨c, _ | ⟨d, f⟩⟩⟩⟩ <;> try (simp at hge hf; done)
    obtain ⟨l, t, h1, h2⟩ := readFacet_many a b c d f r hv
    rw [h1]
    refine ⟨"Error unknown token", ?_⟩
    simp only []
    rcases h2 with rfl | rfl | ⟨g, hg, rfl⟩
    · rw [loop_constLine _ _ t fuel (Or.inl rfl) rfl]
    · rw [loop_constLine _ _ t fuel (Or.inr rfl) rfl]
    · rw [loop_vertexLine _ t fuel g hg rfl]

/-! ## Every text: termination, triangles, `endsolid` -/

theorem getLine_length (s : TStream) (h : (s.fail || s.eof) = false) :
    let s' := (getLine s).2
    (s'.fail || s'.eof) = true ∨ s'.data.length < s.data.length := by
  have h' : (s.eof || s.fail) = false := by rw [Bool.or_comm]; exact h
  unfold getLine
  simp only [h', Bool.false_eq_true, if_false]
  split
  · split
    · left; simp
    · rename_i hd
      right
      have : (s.data.dropWhile (fun c => c != '\n')).length ≤ s.data.length := by
        have := congrArg List.length (List.takeWhile_append_dropWhile (p := fun c => c != '\n') (l := s.data))
        simp only [List.length_append] at this
        omega
      rw [hd] at this
      simp only [List.length_cons] at this
      exact this
  · left; simp

/-- `getLine` never lengthens the stream, and keeps its flags. -/
theorem getLine_mono (s : TStream) :
    (getLine s).2.data.length ≤ s.data.length ∧
    ((s.fail || s.eof) = true → ((getLine s).2.fail || (getLine s).2.eof) = true) := by
  by_cases h : (s.eof || s.fail) = true
  · unfold getLine; rw [if_pos h]; simp
  · have h' : (s.fail || s.eof) = false := by rw [Bool.or_comm]; simpa using h
    refine ⟨?_, fun h'' => by rw [h'] at h''; cases h''⟩
    unfold getLine
    rw [if_neg h]
    simp only
    split
    · split
      · simp
      · rename_i hd
        have := congrArg List.length (List.takeWhile_append_dropWhile (p := fun c => c != '\n') (l := s.data))
        rw [hd] at this
        simp only [List.length_append, List.length_cons] at this
        simp only
        omega
    · simp

/-- Progress of a stream: stopped, or shorter. -/
def Shorter (s s' : TStream) : Prop :=
  (s'.fail || s'.eof) = true ∨ s'.data.length < s.data.length

theorem shorter_getLine {s s' : TStream} (h : Shorter s s') : Shorter s (getLine s').2 := by
  obtain ⟨h1, h2⟩ := getLine_mono s'
  rcases h with h | h
  · exact Or.inl (h2 h)
  · exact Or.inr (Nat.lt_of_le_of_lt h1 h)

theorem readFacet_spec {next : Text} {s s' : TStream} {f : List (Vertex K)}
    (h : readFacet scan next s = .ok (f, s')) :
    f.length = 3 ∧ s' = (getLine (getLine (getLine (getLine (getLine (getLine s).2).2).2).2).2).2 := by
  unfold readFacet at h
  simp only [bind, Except.bind, pure, Except.pure] at h
  split at h
  · cases h
  · split at h
    · cases h
    · split at h
      · cases h
      · split at h
        · cases h
        · cases h
          exact ⟨rfl, rfl⟩

theorem dispatch_spec {token next : Text} {st st' : Loop K} (h : dispatch scan token next st = .ok st') :
    (∀ s, Shorter s st.s → Shorter s st'.s) ∧
    ((∀ f ∈ st.result, f.length = 3) → ∀ f ∈ st'.result, f.length = 3) ∧
    (st'.endReached = true → st.endReached = true ∨ token = lit "endsolid") := by
  unfold dispatch at h
  split at h
  · simp only [bind, Except.bind, pure, Except.pure] at h
    split at h
    · cases h
    · rename_i v hv
      obtain ⟨f, s'⟩ := v
      cases h
      obtain ⟨h1, h2⟩ := readFacet_spec hv
      refine ⟨fun s hs => ?_, ?_, fun h => Or.inl h⟩
      · simp only [h2]
        exact shorter_getLine (shorter_getLine (shorter_getLine (shorter_getLine (shorter_getLine
          (shorter_getLine hs)))))
      · intro hr g hg
        rcases List.mem_append.1 hg with hg | hg
        · exact hr g hg
        · rw [List.mem_singleton.1 hg]; exact h1
  · split at h
    · cases h; exact ⟨fun s hs => hs, fun h => h, fun h => Or.inl h⟩
    · split at h
      · cases h; exact ⟨fun s hs => hs, fun h => h, fun _ => Or.inr (by assumption)⟩
      · cases h

theorem turn_spec {st st' : Loop K} (h0 : (st.s.fail || st.s.eof) = false) (h : turn scan st = .ok st') :
    Shorter st.s st'.s ∧ ((∀ f ∈ st.result, f.length = 3) → ∀ f ∈ st'.result, f.length = 3) := by
  have hs : Shorter st.s (getLine st.s).2 := getLine_length st.s h0
  unfold turn at h
  simp only [] at h
  split at h
  · cases h; exact ⟨hs, fun h => h⟩
  · split at h
    · cases h; exact ⟨hs, fun h => h⟩
    · split at h
      · obtain ⟨h1, h2, -⟩ := dispatch_spec h
        exact ⟨h1 _ hs, h2⟩
      · split at h
        · cases h
        · split at h
          · cases h
          · obtain ⟨h1, h2, -⟩ := dispatch_spec h
            exact ⟨h1 _ hs, h2⟩

theorem readVertex_no_fuel {l : Text} {e : Err} (h : readVertex scan l = .error e) : e ≠ .throw "out of fuel" := by
  unfold readVertex at h
  repeat' split at h
  all_goals (cases h; try decide)

theorem readNormal_no_fuel {l : Text} {e : Err} (h : readNormal l = .error e) : e ≠ .throw "out of fuel" := by
  unfold readNormal at h
  repeat' split at h
  all_goals (cases h; try decide)

theorem readFacet_no_fuel {next : Text} {s : TStream} {e : Err} (h : readFacet scan next s = .error e) :
    e ≠ .throw "out of fuel" := by
  unfold readFacet at h
  simp only [bind, Except.bind, pure, Except.pure] at h
  split at h
  · rename_i h'; cases h; exact readNormal_no_fuel h'
  · split at h
    · rename_i h'; cases h; exact readVertex_no_fuel h'
    · split at h
      · rename_i h'; cases h; exact readVertex_no_fuel h'
      · split at h
        · rename_i h'; cases h; exact readVertex_no_fuel h'
        · cases h

theorem dispatch_no_fuel (token next : Text) (st : Loop K) :
    dispatch scan token next st ≠ .error (.throw "out of fuel") := by
  unfold dispatch
  split
  · simp only [bind, Except.bind, pure, Except.pure]
    split
    · rename_i h
      intro h'
      cases h'
      exact readFacet_no_fuel h rfl
    · intro h; cases h
  · split
    · simp [pure, Except.pure]
    · split
      · simp [pure, Except.pure]
      · simp

theorem turn_no_fuel (st : Loop K) : turn scan st ≠ .error (.throw "out of fuel") := by
  unfold turn
  simp only []
  split
  · intro h; cases h
  · split
    · intro h; cases h
    · split
      · exact dispatch_no_fuel _ _ _
      · split
        · intro h; cases h
        · split
          · intro h; cases h
          · exact dispatch_no_fuel _ _ _

theorem loop_spec (fuel : Nat) (st : Loop K)
    (hf : (st.s.fail || st.s.eof) = true ∨ st.s.data.length < fuel)
    (hr : ∀ f ∈ st.result, f.length = 3) :
    loop scan fuel st ≠ .error (.throw "out of fuel") ∧
    ∀ st', loop scan fuel st = .ok st' → ∀ f ∈ st'.result, f.length = 3 := by
  induction fuel generalizing st with
  | zero =>
    rcases hf with hf | hf
    · rw [loop_done 0 st hf]
      exact ⟨by simp, fun st' h => by cases h; exact hr⟩
    · omega
  | succ fuel ih =>
    by_cases hs : (st.s.fail || st.s.eof) = true
    · rw [loop_done _ st hs]
      exact ⟨by simp, fun st' h => by cases h; exact hr⟩
    · rw [loop, if_neg hs]
      have hs' : (st.s.fail || st.s.eof) = false := by simpa using hs
      rcases ht : turn scan st with e | st'
      · simp only
        exact ⟨by rw [← ht]; exact turn_no_fuel st, fun st' h => by cases h⟩
      · simp only
        obtain ⟨h1, h2⟩ := turn_spec hs' ht
        apply ih st' _ (h2 hr)
        rcases h1 with h1 | h1
        · exact Or.inl h1
        · right
          rcases hf with hf | hf
          · exact absurd hf hs
          · omega

/-- The reader always terminates: the bound on the number of turns used in the model is never
reached, for any text. -/
theorem read_never_runs_out (input : Text) : readAscii scan input ≠ .error (.throw "out of fuel") := by
  unfold readAscii
  simp only []
  have h := (loop_spec (scan := scan) (input.length + 1)
    (Loop.mk none false (getLine (fresh input)).2 []) (by
      right
      have := (getLine_mono (fresh input)).1
      simp only [fresh] at this ⊢
      omega) (by simp)).1
  split
  · rename_i e he
    intro h'
    cases h'
    exact h he
  · split <;> simp

/-- **C101** Whatever the text, what is read is made of triangles. -/
theorem ascii_stl_triangles (input : Text) (m : TextMesh K) (h : readAscii scan input = .ok m) :
    ∀ f ∈ m, f.length = 3 := by
  unfold readAscii at h
  simp only [] at h
  split at h
  · cases h
  · rename_i st hst
    split at h
    · cases h
      exact (loop_spec (scan := scan) (input.length + 1) (Loop.mk none false (getLine (fresh input)).2 []) (by
        right
        have := (getLine_mono (fresh input)).1
        simp only [fresh] at this ⊢
        omega) (by simp)).2 st hst
    · cases h

theorem infix_of_suffix_line {input data l : Text} (h : data <:+ input) (hl : l <+: data) : l <:+: input := by
  obtain ⟨a, rfl⟩ := h
  obtain ⟨b, rfl⟩ := hl
  exact ⟨a, b, by simp⟩

theorem takeWhile_prefix' (p : Char → Bool) (l : Text) : l.takeWhile p <+: l :=
  ⟨l.dropWhile p, List.takeWhile_append_dropWhile⟩

theorem dropWhile_suffix' (p : Char → Bool) (l : Text) : l.dropWhile p <:+ l :=
  ⟨l.takeWhile p, List.takeWhile_append_dropWhile⟩

theorem infix_trans {a b c : Text} (h : a <:+: b) (h' : b <:+: c) : a <:+: c := List.IsInfix.trans h h'

/-- What `getLine` returns is in the stream, and what is left is the end of the stream. -/
theorem getLine_infix (s : TStream) : (getLine s).1 <:+: s.data ∧ (getLine s).2.data <:+ s.data := by
  unfold getLine
  split
  · exact ⟨List.nil_infix, List.suffix_refl _⟩
  · simp only
    split
    · have h1 : cstr (s.data.takeWhile (fun c => c != '\n')) <:+: s.data :=
        infix_trans (takeWhile_prefix' _ _).isInfix (takeWhile_prefix' _ _).isInfix
      split
      · exact ⟨h1, List.nil_suffix⟩
      · rename_i c r hd
        refine ⟨h1, ?_⟩
        have := dropWhile_suffix' (fun c => c != '\n') s.data
        rw [hd] at this
        exact (List.suffix_cons c r).trans this
    · refine ⟨?_, List.drop_suffix _ _⟩
      exact infix_trans (takeWhile_prefix' _ _).isInfix
        (infix_trans (List.take_prefix _ _).isInfix (takeWhile_prefix' _ _).isInfix)

theorem word_infix {l w r : Text} (h : word l = some (w, r)) : w <:+: l := by
  unfold word at h
  split at h
  · cases h
  · rename_i c t hd
    cases h
    have h1 := (takeWhile_prefix' (fun c => !isSpace c) (c :: t)).isInfix
    rw [← hd] at h1
    rw [← hd]
    exact infix_trans h1 (dropWhile_suffix' _ _).isInfix

/-- Invariant of the loop about the words that were read. -/
def FromInput (input : Text) (st : Loop K) : Prop :=
  st.s.data <:+ input ∧ (∀ t, st.token = some t → t <:+: input) ∧
    (st.endReached = true → lit "endsolid" <:+: input)

theorem dispatch_input {input token next : Text} {st st' : Loop K} (ht : token <:+: input)
    (hst : FromInput input st) (h : dispatch scan token next st = .ok st') : FromInput input st' := by
  obtain ⟨h1, h2, h3⟩ := hst
  unfold dispatch at h
  split at h
  · simp only [bind, Except.bind, pure, Except.pure] at h
    split at h
    · cases h
    · rename_i v hv
      obtain ⟨f, s'⟩ := v
      cases h
      obtain ⟨-, hs⟩ := readFacet_spec hv
      refine ⟨?_, fun t e => by cases e; exact ht, h3⟩
      simp only [hs]
      exact ((((((getLine_infix _).2.trans (getLine_infix _).2).trans (getLine_infix _).2).trans
        (getLine_infix _).2).trans (getLine_infix _).2).trans (getLine_infix _).2).trans h1
  · split at h
    · cases h; exact ⟨h1, fun t e => by cases e; exact ht, h3⟩
    · split at h
      · rename_i he
        cases h; exact ⟨h1, fun t e => by cases e; exact ht, fun _ => he ▸ ht⟩
      · cases h

theorem turn_input {input : Text} {st st' : Loop K} (hst : FromInput input st) (h : turn scan st = .ok st') :
    FromInput input st' := by
  obtain ⟨g1, g2⟩ := getLine_infix st.s
  obtain ⟨h1, h2, h3⟩ := hst
  have hst' : FromInput input { st with s := (getLine st.s).2 } := ⟨g2.trans h1, h2, h3⟩
  unfold turn at h
  simp only [] at h
  split at h
  · cases h; exact hst'
  · rename_i c r hd
    split at h
    · cases h; exact hst'
    · split at h
      · rename_i w hw
        refine dispatch_input ?_ hst' h
        exact infix_trans (word_infix hw) (infix_trans (dropWhile_suffix' _ _).isInfix (infix_trans g1 h1.isInfix))
      · split at h
        · cases h
        · rename_i t ht
          split at h
          · cases h
          · exact dispatch_input (h2 t ht) hst' h

theorem loop_input {input : Text} (fuel : Nat) {st st' : Loop K} (hst : FromInput input st)
    (h : loop scan fuel st = .ok st') : FromInput input st' := by
  induction fuel generalizing st with
  | zero =>
    rw [loop] at h
    split at h
    · cases h; exact hst
    · cases h
  | succ fuel ih =>
    rw [loop] at h
    split at h
    · cases h; exact hst
    · rcases ht : turn scan st with e | st1
      · rw [ht] at h; cases h
      · rw [ht] at h
        exact ih (turn_input hst ht) h

/-- **C101** A text without the word `endsolid` (for instance a truncated file) is always
refused. -/
theorem ascii_stl_needs_endsolid (input : Text) (m : TextMesh K) (h : readAscii scan input = .ok m) :
    "endsolid".toList <:+: input := by
  unfold readAscii at h
  simp only [] at h
  split at h
  · cases h
  · rename_i st hst
    split at h
    · rename_i he
      exact (loop_input (scan := scan) (input.length + 1) (st := Loop.mk none false (getLine (fresh input)).2 [])
        ⟨(getLine_infix (fresh input)).2, by simp, by simp⟩ hst).2.2 he
    · cases h

/-! ## Examples and limits -/

/-- Natural numbers written in decimal, and their reader: an instance of `print` and `scan`
for which every number of at most 70 digits is exact. -/
def printNat (n : Nat) : Text := Nat.toDigits 10 n

def scanNat (l : Text) : Option (Nat × Text) :=
  let l := l.dropWhile isSpace
  match l.takeWhile (fun c => c.isDigit) with
  | [] => none
  | d :: ds => some ((d :: ds).foldl (fun a c => 10 * a + (c.toNat - 48)) 0, l.dropWhile (fun c => c.isDigit))

/-- Two triangles make the round trip. -/
example : readAscii scanNat (writeStl printNat
    [[(1, 20, 300), (0, 5, 6), (7, 8, 9)], [(0, 0, 1), (0, 1000, 0), (12, 0, 0)]]) =
    .ok [[(1, 20, 300), (0, 5, 6), (7, 8, 9)], [(0, 0, 1), (0, 1000, 0), (12, 0, 0)]] := by decide +kernel

theorem isDigit_digitChar {d : Nat} (h : d < 10) : (Nat.digitChar d).isDigit = true ∧
    (Nat.digitChar d).toNat - 48 = d ∧ isSpace (Nat.digitChar d) = false ∧ Nat.digitChar d ≠ '\x00' ∧
    (Nat.digitChar d).toNat < 256 := by
  have : ∀ d : Fin 10, (Nat.digitChar d).isDigit = true ∧
    (Nat.digitChar d).toNat - 48 = d ∧ isSpace (Nat.digitChar d) = false ∧ Nat.digitChar d ≠ '\x00' ∧
    (Nat.digitChar d).toNat < 256 := by decide
  exact this ⟨d, h⟩

/-- All the digits: the hypotheses of the round trip are met by all the coordinates from 0
to 9, for instance. -/
theorem exact_digit (d : Nat) (h : d < 10) : Exact printNat scanNat d := by
  obtain ⟨h1, h2, h3, h4, h5⟩ := isDigit_digitChar h
  have hp : printNat d = [Nat.digitChar d] := Nat.toDigits_of_lt_base h
  refine ⟨?_, by rw [hp]; simp, ?_⟩
  · rw [hp]; intro c hc; rw [List.mem_singleton.1 hc]; exact ⟨h3, h4, h5⟩
  · intro n r hr
    have hd : (List.replicate n ' ' ++ printNat d ++ r).dropWhile isSpace = Nat.digitChar d :: r := by
      rw [hp]
      induction n with
      | zero => simp [h3]
      | succ n ih =>
        rw [List.replicate_succ, List.cons_append, List.cons_append, List.dropWhile_cons, if_pos (by decide), ih]
    unfold scanNat
    simp only [hd]
    have ht : (Nat.digitChar d :: r).takeWhile (fun c => c.isDigit) = [Nat.digitChar d] ∧
        (Nat.digitChar d :: r).dropWhile (fun c => c.isDigit) = r := by
      rcases hr with rfl | ⟨r', rfl⟩
      · simp [h1]
      · have : Char.isDigit ' ' = false := by decide
        simp [h1, this]
    simp [ht.1, ht.2, h2]

/-- A file with Windows ends of lines and a blank line after a facet: the previous word is
used again and characters after the end of the line are read. -/
theorem ascii_stl_crlf_blank_line_undefined :
    readAscii scanNat (lit "solid a\r\nfacet normal 0 0 1\r\nouter loop\r\nvertex 0 0 0\r\nvertex 1 0 0\r\nvertex 0 1 0\r\nendloop\r\nendfacet\r\n\r\nendsolid a\r\n")
      = .error .ub := by decide +kernel

/-- The same file without the blank line is read. -/
example :
    readAscii scanNat (lit "solid a\r\nfacet normal 0 0 1\r\nouter loop\r\nvertex 0 0 0\r\nvertex 1 0 0\r\nvertex 0 1 0\r\nendloop\r\nendfacet\r\nendsolid a\r\n")
      = .ok [[(0, 0, 0), (1, 0, 0), (0, 1, 0)]] := by decide +kernel

/-- A word of twenty characters or more where `vertex` is expected overflows a buffer. -/
theorem ascii_stl_long_word_undefined (w : Text) (hw : ∀ c ∈ w, isSpace c = false) (h : 20 ≤ w.length) :
    readVertex scan w = .error .ub := by
  have e : word w = some (w, []) := by
    cases w with
    | nil => simp at h
    | cons c w =>
      have hc := hw c (by simp)
      unfold word
      rw [List.dropWhile_cons, if_neg (by simp [hc])]
      have ht : ∀ l : Text, (∀ c ∈ l, isSpace c = false) → l.takeWhile (fun c => !isSpace c) = l ∧
          l.dropWhile (fun c => !isSpace c) = [] := by
        intro l
        induction l with
        | nil => simp
        | cons a l ih => intro h; simp [h a (by simp), ih (fun c hc => h c (by simp [hc]))]
      simp only [(ht _ hw).1, (ht _ hw).2]
  unfold readVertex
  rw [e]
  simp only [h, if_true]

end Xdyn.StlAscii

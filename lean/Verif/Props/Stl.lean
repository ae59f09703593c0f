import Verif.Lemmas.Stl

/-! Properties C07 and C71: binary STL files. -/

namespace Xdyn.Stl

/-- **C07** Writing a mesh of triangles and reading it back gives the same triangles, in the
same order, whatever normals are written; the file is recognised as a binary one and has
84 + 50 n bytes. -/
theorem stl_round_trip (normal : Point → Point → Point → Point) (mesh : List Facet)
    (htri : ∀ f ∈ mesh, f.length = 3) (hn : mesh.length < 4294967296) :
    ∃ bytes, write normal mesh = some bytes ∧ bytes.length = 84 + 50 * mesh.length ∧
      isBinary bytes = some true ∧ readBinary bytes = some mesh := by
  obtain ⟨body, hb, hlen, hr⟩ := write_read_facets normal mesh htri
  have hmod : mesh.length % 4294967296 = mesh.length := Nat.mod_eq_of_lt hn
  refine ⟨List.replicate 80 1 ++ bytesOfWord ⟨mesh.length, hn⟩ ++ body, ?_, ?_, ?_, ?_⟩
  · simp [write, hmod, hb]
  · simp [bytesOfWord, hlen]; omega
  · have h80 : List.replicate 80 (1 : Byte) = [1, 1, 1, 1, 1, 1] ++ List.replicate 74 1 := rfl
    rw [h80, List.append_assoc, List.append_assoc]
    exact isBinary_ones _
  · obtain ⟨a, b, c, d, hw, hww⟩ := wordOfBytes_bytesOfWord ⟨mesh.length, hn⟩
    rw [hw]
    have h1 : Stream.ignore { data := List.replicate 80 1 ++ [a, b, c, d] ++ body, good := true } 80
        = { data := [a, b, c, d] ++ body, good := true } := by
      simp [Stream.ignore]
    simp only [readBinary, h1, readCount, if_true]
    simp only [List.cons_append, List.nil_append, List.take_succ_cons, List.take_zero,
      List.getD_cons_zero, List.getD_cons_succ, hww, List.drop_succ_cons, List.drop_zero, List.length_cons]
    rw [if_pos (by omega)]
    exact hr _

/-- The hypotheses of C07 are met by a mesh of two triangles. -/
example : (∀ f ∈ ([[(1, 2, 3), (4, 5, 6), (7, 8, 9)], [(0, 0, 1), (0, 1, 0), (1, 0, 0)]] : List Facet),
    f.length = 3) ∧ ([[(1, 2, 3), (4, 5, 6), (7, 8, 9)], [(0, 0, 1), (0, 1, 0), (1, 0, 0)]] : List Facet).length
    < 4294967296 := by simp

/-- A facet with more than three vertices does not survive: the extra vertices are lost
(this is why C07 is about triangles only). -/
theorem stl_quad_truncated (normal : Point → Point → Point → Point) (a b c d : Point) :
    write normal [[a, b, c, d]] = write normal [[a, b, c]] := by
  simp [write, writeFacets, writeFacet]

/-- **C71, refuted** A truncated file is not rejected: when the header announces a facet
that is not there, the reader uses indeterminate coordinates. -/
theorem stl_truncated_file_undefined (n : Word) (hn : 0 < n.val) :
    readBinary (List.replicate 80 1 ++ bytesOfWord n) = none := by
  obtain ⟨a, b, c, d, hw, hww⟩ := wordOfBytes_bytesOfWord n
  rw [hw]
  have h1 : Stream.ignore { data := List.replicate 80 1 ++ [a, b, c, d], good := true } 80
      = { data := [a, b, c, d], good := true } := by
    simp [Stream.ignore]
  simp only [readBinary, h1, readCount, if_true]
  simp only [List.take_succ_cons, List.take_zero,
    List.getD_cons_zero, List.getD_cons_succ, hww, List.drop_succ_cons, List.drop_zero, List.length_cons]
  obtain ⟨k, hk⟩ : ∃ k, n.val = k + 1 := ⟨n.val - 1, by omega⟩
  rw [hk]
  simp [readFacets, Stream.ignore, readWords, readWord, Stream.get, facetOf]

/-- **C71, refuted** A file whose last two bytes (the attributes of its only facet) are missing and whose header announces `n` facets is read as `n` times that
facet: the missing facets are returned nevertheless. -/
theorem stl_truncated_facet_repeated (n : Word) (nb : List Byte) (hb : nb.length = 12) (a b c : Point) :
    readBinary (List.replicate 80 1 ++ bytesOfWord n ++ (nb ++ ((coords a b c).map bytesOfWord).flatten)) = some (List.replicate n.val [a, b, c]) := by
  obtain ⟨x, y, z, t, hw, hww⟩ := wordOfBytes_bytesOfWord n
  rw [hw]
  generalize hB : nb ++ ((coords a b c).map bytesOfWord).flatten = body
  have h1 : Stream.ignore { data := List.replicate 80 1 ++ [x, y, z, t] ++ body, good := true } 80 = { data := [x, y, z, t] ++ body, good := true } := by
    simp only [Stream.ignore, if_true, List.append_assoc]
    rw [if_pos (by simp), List.drop_left' (by simp)]
  simp only [readBinary, h1, readCount, if_true]
  simp only [List.cons_append, List.nil_append, List.take_succ_cons, List.take_zero,
    List.getD_cons_zero, List.getD_cons_succ, hww, List.drop_succ_cons, List.drop_zero, List.length_cons]
  rw [if_pos (by omega)]
  have stale : ∀ m, readFacets m ((coords a b c).map some) { data := [], good := false } = some (List.replicate m [a, b, c]) := by
    intro m
    induction m with
    | zero => rfl
    | succ m ih =>
      rw [readFacets]
      simp only [Bool.false_eq_true, if_false, ih]
      simp [coords, facetOf, List.replicate_succ]
  match hn : n.val with
  | 0 => rfl
  | m + 1 =>
    have i1 : Stream.ignore { data := body, good := true } 12 = { data := ((coords a b c).map bytesOfWord).flatten ++ [], good := true } := by
      rw [← hB]
      simp only [Stream.ignore, if_true, List.append_nil]
      rw [if_pos (by simp [hb]), List.drop_left' hb]
    have h2 := readWords_bytes (coords a b c) []
    have h3 : (coords a b c).length = 9 := rfl
    rw [h3] at h2
    have i2 : Stream.ignore { data := [], good := true } 2 = { data := [], good := false } := by simp [Stream.ignore]
    rw [readFacets]
    simp only [if_true, i1, h2, i2, stale]
    simp [coords, facetOf, List.replicate_succ]

/-- **C71, partial** On a file long enough for the number of facets in its header, the
reader never uses an indeterminate value and returns that number of facets, each with three
vertices. Missing: shorter files (refuted above). -/
theorem stl_complete_file_partial (header : List Byte) (n : Word) (body : List Byte)
    (hh : header.length = 80) (hb : 50 * n.val ≤ body.length) :
    ∃ mesh, readBinary (header ++ bytesOfWord n ++ body) = some mesh ∧ mesh.length = n.val ∧
      ∀ f ∈ mesh, f.length = 3 := by
  obtain ⟨a, b, c, d, hw, hww⟩ := wordOfBytes_bytesOfWord n
  rw [hw]
  have h1 : Stream.ignore { data := header ++ [a, b, c, d] ++ body, good := true } 80
      = { data := [a, b, c, d] ++ body, good := true } := by
    simp only [Stream.ignore, if_true, List.append_assoc]
    rw [if_pos (by simp [hh]), ← hh, List.drop_left]
  simp only [readBinary, h1, readCount, if_true]
  simp only [List.cons_append, List.nil_append, List.take_succ_cons, List.take_zero,
    List.getD_cons_zero, List.getD_cons_succ, hww, List.drop_succ_cons, List.drop_zero, List.length_cons]
  rw [if_pos (by omega)]
  clear h1 hww hw
  generalize n.val = m at hb ⊢
  generalize List.replicate 9 none = v
  have key : ∀ (m : Nat) (body : List Byte) (v : List (Option Word)), 50 * m ≤ body.length →
      ∃ mesh, readFacets m v { data := body, good := true } = some mesh ∧ mesh.length = m ∧
        ∀ f ∈ mesh, f.length = 3 := by
    intro m
    induction m with
    | zero => intro body v _; exact ⟨[], by simp [readFacets]⟩
    | succ m ih =>
      intro body v hb
      have e1 : ∃ w0 w1 w2 w3 w4 w5 w6 w7 w8, ∃ l : List Byte, 50 * m + 2 ≤ l.length ∧
          readWords 9 { data := body.drop 12, good := true } =
            ([some w0, some w1, some w2, some w3, some w4, some w5, some w6, some w7, some w8],
             { data := l, good := true }) := by
        have hlen : 50 * m + 38 ≤ (body.drop 12).length := by simp; omega
        have step : ∀ (k : Nat) (l : List Byte), 4 + k ≤ l.length → ∃ w l', k ≤ l'.length ∧
            readWord { data := l, good := true } = (some w, { data := l', good := true }) := by
          intro k l hl
          match l, hl with
          | a :: b :: c :: d :: l', hl =>
            refine ⟨wordOfBytes a b c d, l', by simp at hl; omega, ?_⟩
            simp [readWord, Stream.get]
          | [], hl => simp at hl
          | [_], hl => simp at hl; omega
          | [_, _], hl => simp at hl; omega
          | [_, _, _], hl => simp at hl; omega
        obtain ⟨w0, l0, h0, r0⟩ := step (50 * m + 34) (body.drop 12) (by omega)
        obtain ⟨w1, l1, h1, r1⟩ := step (50 * m + 30) l0 (by omega)
        obtain ⟨w2, l2, h2, r2⟩ := step (50 * m + 26) l1 (by omega)
        obtain ⟨w3, l3, h3, r3⟩ := step (50 * m + 22) l2 (by omega)
        obtain ⟨w4, l4, h4, r4⟩ := step (50 * m + 18) l3 (by omega)
        obtain ⟨w5, l5, h5, r5⟩ := step (50 * m + 14) l4 (by omega)
        obtain ⟨w6, l6, h6, r6⟩ := step (50 * m + 10) l5 (by omega)
        obtain ⟨w7, l7, h7, r7⟩ := step (50 * m + 6) l6 (by omega)
        obtain ⟨w8, l8, h8, r8⟩ := step (50 * m + 2) l7 (by omega)
        exact ⟨w0, w1, w2, w3, w4, w5, w6, w7, w8, l8, h8, by
          simp only [readWords, r0, r1, r2, r3, r4, r5, r6, r7, r8]⟩
      obtain ⟨w0, w1, w2, w3, w4, w5, w6, w7, w8, l, hl, hr⟩ := e1
      obtain ⟨mesh, hm, hlen, hf⟩ := ih (l.drop 2)
        [some w0, some w1, some w2, some w3, some w4, some w5, some w6, some w7, some w8] (by simp; omega)
      refine ⟨[(w0, w1, w2), (w3, w4, w5), (w6, w7, w8)] :: mesh, ?_, by simp [hlen], ?_⟩
      · have i1 : Stream.ignore { data := body, good := true } 12 = { data := body.drop 12, good := true } := by
          simp only [Stream.ignore, if_true]; rw [if_pos (by omega)]
        have i2 : Stream.ignore { data := l, good := true } 2 = { data := l.drop 2, good := true } := by
          simp only [Stream.ignore, if_true]; rw [if_pos (by omega)]
        rw [readFacets]
        simp only [if_true, i1, hr, i2, hm]
        simp [facetOf]
      · intro f hfm
        rcases List.mem_cons.1 hfm with rfl | hfm
        · rfl
        · exact hf f hfm
  exact key m body v hb

example : ∃ (header body : List Byte) (n : Word), header.length = 80 ∧ 0 < n.val ∧ 50 * n.val ≤ body.length :=
  ⟨List.replicate 80 7, List.replicate 103 5, 2, by simp⟩

end Xdyn.Stl
